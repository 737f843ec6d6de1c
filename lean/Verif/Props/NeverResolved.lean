import Verif.Props.AnyCallback
/-!
C107: a callback of either kind that was not told when its event ended is never told; a future never gets a result.
-/
namespace Openleadr

/-- What may follow on `x` in the histories of C110 with callbacks of both kinds, as long as no event with the id `id` is added for the VEN. -/
inductive Onward (lib : Lib) (h : VenHandlers) (ven : String) (cb : String → Callback) (id : String) (x : Sides) : Sides → Prop
  | here : Onward lib h ven cb id x x
  /-- Events are added and cancelled. -/
  | change {y : Sides} {s' : Server} : Onward lib h ven cb id x y → Posted lib ven cb y.calls y.vtn.1 s' → (∀ e ∈ s'.queue ven, e.id ≠ id) →
      Onward lib h ven cb id x { y with vtn := (s', y.vtn.2) }
  /-- Something that does not concern this VEN. -/
  | other {y : Sides} {cache : NonceCache} {s' : Server} {new : List Effect} : Onward lib h ven cb id x y → s'.queue ven = y.vtn.1.queue ven →
      s'.flag ven = y.vtn.1.flag ven → s'.external = y.vtn.1.external →
      (∀ e ∈ y.vtn.1.queue ven, Dict.get? s'.callbacks e.id = Dict.get? y.vtn.1.callbacks e.id) → (Dict.keys s'.callbacks).Nodup →
      (∀ id, ((cb id).unused y.vtn.1 → (cb id).unused s') ∧ heardBy (cb id) ven id new = []) → Onward lib h ven cb id x ⟨cache, (s', y.vtn.2 ++ new), y.ven, y.calls⟩
  /-- The VEN logs the statuses of its events. -/
  | log {y : Sides} (clock : Nat → Int) : Onward lib h ven cb id x y →
      Onward lib h ven cb id x { y with ven := { y.ven with received := statusLog clock 0 y.ven.received } }
  /-- The VEN cleans up. -/
  | forget {y : Sides} (clock : Nat → Int) : Onward lib h ven cb id x y →
      (∀ e ∈ y.vtn.1.queue ven, ∀ r ∈ y.ven.received, r.id = e.id → r ∈ cleanup clock y.ven.received) →
      Onward lib h ven cb id x { y with ven := { y.ven with received := cleanup clock y.ven.received } }
  /-- The VEN polls, and decides at once. -/
  | poll {y : Sides} (p : PollSetting) : Onward lib h ven cb id x y → p.Fine lib ven y → Onward lib h ven cb id x (p.round h ven y)
  /-- The VEN polls, and events are added and cancelled while it decides. -/
  | slow {y : Sides} (p : PollSetting) (f : Server → Server) : Onward lib h ven cb id x y → p.Fine lib ven y → (∀ e ∈ y.vtn.1.queue ven, e.status ≠ .cancelled) →
      Posted lib ven cb (p.start h ven y).calls (p.start h ven y).vtn.1 (f (p.start h ven y).vtn.1) →
      (∀ e ∈ (f (p.start h ven y).vtn.1).queue ven, e.id ≠ id) → Onward lib h ven cb id x (p.slow h ven f y)

theorem onward_awaited {lib : Lib} {h : VenHandlers} {ven : String} {cb : String → Callback} {id : String} {x y : Sides} (hx : Awaited lib h ven cb x)
    (ha : Onward lib h ven cb id x y) : Awaited lib h ven cb y := by
  induction ha with
  | here => exact hx
  | change _ h1 _ ih => exact .change ih h1
  | other _ h1 h2 h3 h4 h5 h6 ih => exact .other ih h1 h2 h3 h4 h5 h6
  | log clock _ ih => exact .log clock ih
  | forget clock _ hf ih => exact .forget clock ih hf
  | poll p _ hp ih => exact .poll p ih hp
  | slow p f _ hp hl h1 _ ih => exact .slow p f ih hp hl h1

theorem posted_futures {lib : Lib} {ven : String} {cb : String → Callback} {calls : List VenCall} {s s' : Server} (ha : Posted lib ven cb calls s s') :
    s'.doneFutures = s.doneFutures := by
  induction ha with
  | same => rfl
  | add _ h1 _ _ _ _ _ _ _ ih =>
    obtain ⟨-, -, -, p, -, -, -, -, -, hdone⟩ := added_state h1
    exact hdone.trans ih
  | @cancel s3 id _ ih =>
    rcases cancelEvent_cases s3 ven id with ⟨h, -⟩ | ⟨-, h⟩
    · rw [h]; exact ih
    · rw [h]; exact ih

/-- What is not told: nobody hears of `id` from `x` to `y`, and a future without a result stays without one. -/
def Unheard (ven : String) (cb : String → Callback) (id : String) (x y : Sides) : Prop :=
  heardBy (cb id) ven id y.vtn.2 = heardBy (cb id) ven id x.vtn.2 ∧ ((cb id).unused x.vtn.1 → (cb id).unused y.vtn.1)

/-- If the VTN has no event with an id when the answers arrive, nobody is told of this event by a poll. -/
theorem slow_unheard {p : PollSetting} {lib : Lib} {h : VenHandlers} (ht : h.Total) {ven : String} {cb : String → Callback} (hcb : OwnFutures cb) {x : Sides}
    {f : Server → Server} (hi : InStep lib ven x) (hp : p.Fine lib ven x) (hx : AnyCore h ven cb x)
    (ha : Posted lib ven cb (p.start h ven x).calls (p.start h ven x).vtn.1 (f (p.start h ven x).vtn.1)) {id : String}
    (hno : ∀ e ∈ (f (p.start h ven x).vtn.1).queue ven, e.id ≠ id) :
    (∀ e ∈ (p.slow h ven f x).vtn.1.queue ven, e.id ≠ id) ∧ Unheard ven cb id x (p.slow h ven f x) := by
  obtain ⟨h1, h2, h3, h4, cache, effects, rs, s', h5, h6, h7, h8⟩ := slow_parts (f := f) ht hi hp hx.said (changed_internal (posted_changed ha))
  obtain ⟨-, hst⟩ := any_started (cache := cache) hx h1 h2 h3 h4 h5 h6
  have hmid := any_posted hst ha
  obtain ⟨-, r2, -⟩ := respondAll_some p.env hp.quiet ven rs _ hmid.nodup
  have r3 := respondAll_any hcb p.env hp.quiet ven rs _ hmid.nodup (fun e he => by
    rcases hmid.pending e he with h | h
    · exact .inr h.1
    · exact .inl h.1) id
  rw [h8]
  refine ⟨fun e he => hno e (r2 e he), ?_⟩
  rcases r3 with ⟨-, a2, a3⟩ | ⟨-, -, -, ⟨e, he, hi⟩, -⟩
  · refine ⟨?_, fun hu => a3 ((unused_frame ((posted_futures ha).trans h2) _).mpr hu)⟩
    simp only [heardBy_append, heardBy_delivered _ _ _ h5, List.append_nil]
    rw [a2, List.append_nil]
  · exact absurd hi (hno e he)

theorem onward_unheard {lib : Lib} {h : VenHandlers} {ven : String} {cb : String → Callback} (hcb : OwnFutures cb) {id : String} {x y : Sides} (ht : h.Total)
    (hx : Awaited lib h ven cb x) (hno : ∀ e ∈ x.vtn.1.queue ven, e.id ≠ id) (ha : Onward lib h ven cb id x y) :
    (∀ e ∈ y.vtn.1.queue ven, e.id ≠ id) ∧ Unheard ven cb id x y := by
  induction ha with
  | here => exact ⟨hno, rfl, fun h => h⟩
  | change _ h1 h2 ih => exact ⟨h2, ih.2.1, fun hu => (unused_frame (posted_futures h1) _).mpr (ih.2.2 hu)⟩
  | @other y cache s' new _ h1 _ _ _ _ h7 ih =>
    refine ⟨fun e he => ih.1 e (by rw [← h1]; exact he), ?_, fun hu => (h7 id).1 (ih.2.2 hu)⟩
    show heardBy (cb id) ven id (y.vtn.2 ++ new) = _
    rw [heardBy_append, (h7 id).2, List.append_nil]
    exact ih.2.1
  | log clock _ ih => exact ih
  | forget clock _ _ ih => exact ih
  | @poll y p hy hp ih =>
    have haw := onward_awaited hx hy
    have hi := raced_inStep ht (awaited_raced haw)
    obtain ⟨-, -, h1, -⟩ := slow_parts (f := fun s => s) ht hi hp (awaited_core ht hcb haw).1.said (fun h => h)
    have := slow_unheard (f := fun s => s) ht hcb hi hp (awaited_core ht hcb haw).1 .same (id := id) (fun e he => by
      obtain ⟨a, ha, hae⟩ := h1 e he
      rw [← hae]
      exact ih.1 a ha)
    rw [show (fun s : Server => s) = _root_.id from rfl, c110_halves] at this
    exact ⟨this.1, this.2.1.trans ih.2.1, fun hu => this.2.2 (ih.2.2 hu)⟩
  | slow p f hy hp _ ha hn ih =>
    have haw := onward_awaited hx hy
    have := slow_unheard ht hcb (raced_inStep ht (awaited_raced haw)) hp (awaited_core ht hcb haw).1 ha hn
    exact ⟨this.1, this.2.1.trans ih.2.1, fun hu => this.2.2 (ih.2.2 hu)⟩

/-- An event that is over is not in the VTN's queue any more after it was handed out. -/
theorem start_over {p : PollSetting} {lib : Lib} {h : VenHandlers} (ht : h.Total) {ven : String} {x : Sides} (hi : InStep lib ven x) (hp : p.Fine lib ven x)
    (hflag : x.vtn.1.flag ven = true) {e : Event} (he : e ∈ x.vtn.1.queue ven) (hc : e.status ≠ .cancelled) (hover : ∀ i, e.overAt (p.vtnClock i)) :
    ∀ a ∈ (p.start h ven x).vtn.1.queue ven, a.id ≠ e.id := by
  obtain ⟨es, d, k⟩ := round_heard ht hi.ready hp hflag
  obtain ⟨s1, htake⟩ := d.handed
  have hs : (p.start h ven x).vtn.1 = { s1 with updated := Dict.set s1.updated ven false } := by
    by_cases hne : es = []
    · subst hne
      rw [PollSetting.start, start_empty (h := h) hi.ready hp hflag htake]
    · obtain ⟨-, -, h2⟩ := start_done (h := h) hi.ready hp hflag htake
      rw [PollSetting.start, h2 hne]
  rw [hs]
  intro a ha hid
  have ha : a ∈ s1.queue ven := ha
  obtain ⟨h1, h2⟩ := kept_handed htake ha
  obtain ⟨b, hb, j, rfl⟩ := handed_from htake h1
  rw [(refresh_members ..).2.2.1] at hid
  rw [same_of_ids hi.distinct hb he hid, refresh_status, if_neg hc] at h2
  exact (not_over_iff e _).mp h2 (hover j)

/-- **C107, refuted** for an event that ends before the VEN hears of it, for callbacks of both kinds: whatever happens after the poll that takes it from the VTN's queue, a
    function is never called, and a future never gets a result, unless an event with the same id is added. Who awaits the future waits forever. -/
theorem c107_never_resolved_violated {p : PollSetting} {lib : Lib} {h : VenHandlers} {ven : String} {cb : String → Callback} {x y : Sides} (ht : h.Total)
    (hcb : OwnFutures cb) (hx : Awaited lib h ven cb x) (hp : p.Fine lib ven x) (hflag : x.vtn.1.flag ven = true) {e : Event} (he : e ∈ x.vtn.1.queue ven)
    (hc : e.status ≠ .cancelled) (hover : ∀ i, e.overAt (p.vtnClock i)) (hnew : ∀ c ∈ x.calls, c.event.id ≠ e.id)
    (ha : Onward lib h ven cb e.id (p.round h ven x) y) : heardBy (cb e.id) ven e.id y.vtn.2 = [] ∧ (cb e.id).unused y.vtn.1 := by
  have hi := raced_inStep ht (awaited_raced hx)
  have hcore := (awaited_core ht hcb hx).1
  have hfirst := slow_unheard (f := _root_.id) ht hcb hi hp hcore .same (start_over ht hi hp hflag he hc hover)
  rw [c110_halves] at hfirst
  obtain ⟨h1, h2, h3⟩ := hfirst
  obtain ⟨-, h4, h5⟩ := onward_unheard hcb ht (.poll p hx hp) h1 ha
  rcases hcore.pending e he with ⟨-, b2, b3⟩ | ⟨-, v, b2, -⟩
  · exact ⟨h4.trans (h2.trans b3), h5 (h3 b2)⟩
  · obtain ⟨c, c1, c2⟩ := voiced_called b2
    exact absurd c2 (hnew c c1)

/-- The VEN polls for the first time when the event is over; however often it polls afterwards, the future 3 has no result. -/
example (y : Sides) (ha : Onward plainLib easyHandlers "ven1" futureFirst event1.id ((pollAt halfPastOne).round easyHandlers "ven1" promisedStart) y) :
    y.vtn.1.doneFutures.contains 3 = false := by
  refine (c107_never_resolved_violated easy_total futureFirst_own promised_awaited ?_ (by rfl) (e := event1) (by rw [queue_promised]; simp) (by decide +kernel)
    (fun i => ⟨by decide +kernel, (by decide +kernel : event1.activePeriod.dtstart + event1.activePeriod.duration ≤ halfPastOne)⟩) ?_ ha).2
  · refine pollAt_fine (by constructor <;> decide +kernel) rfl ?_ ?_ <;> rw [queue_promised] <;> intro e he <;> rw [List.mem_singleton.mp he]
    · rfl
    · intro h; cases h
  · intro c hc
    rw [show promisedStart.calls = [] from rfl] at hc
    simp at hc

end Openleadr
