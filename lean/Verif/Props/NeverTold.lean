import Verif.Props.SlowCallbacks
/-!
C107: a callback that was not told when its event ended is never told.
-/
namespace Openleadr

/-- What may follow on `x` in the histories of C110, as long as no event with the id `id` is added for the VEN. -/
inductive After (lib : Lib) (h : VenHandlers) (ven : String) (cb : String → Nat) (id : String) (x : Sides) : Sides → Prop
  | here : After lib h ven cb id x x
  /-- Events are added and cancelled. -/
  | change {y : Sides} {s' : Server} : After lib h ven cb id x y → Announced lib ven cb y.calls y.vtn.1 s' → (∀ e ∈ s'.queue ven, e.id ≠ id) →
      After lib h ven cb id x { y with vtn := (s', y.vtn.2) }
  /-- Something that does not concern this VEN. -/
  | other {y : Sides} {cache : NonceCache} {s' : Server} {new : List Effect} : After lib h ven cb id x y → s'.queue ven = y.vtn.1.queue ven →
      s'.flag ven = y.vtn.1.flag ven → s'.external = y.vtn.1.external →
      (∀ e ∈ y.vtn.1.queue ven, Dict.get? s'.callbacks e.id = Dict.get? y.vtn.1.callbacks e.id) → Unshared s' → (Dict.keys s'.callbacks).Nodup →
      (∀ id, toldAbout ven id new = []) → After lib h ven cb id x ⟨cache, (s', y.vtn.2 ++ new), y.ven, y.calls⟩
  /-- The VEN logs the statuses of its events. -/
  | log {y : Sides} (clock : Nat → Int) : After lib h ven cb id x y →
      After lib h ven cb id x { y with ven := { y.ven with received := statusLog clock 0 y.ven.received } }
  /-- The VEN cleans up. -/
  | forget {y : Sides} (clock : Nat → Int) : After lib h ven cb id x y →
      (∀ e ∈ y.vtn.1.queue ven, ∀ r ∈ y.ven.received, r.id = e.id → r ∈ cleanup clock y.ven.received) →
      After lib h ven cb id x { y with ven := { y.ven with received := cleanup clock y.ven.received } }
  /-- The VEN polls, and decides at once. -/
  | poll {y : Sides} (p : PollSetting) : After lib h ven cb id x y → p.Fine lib ven y → After lib h ven cb id x (p.round h ven y)
  /-- The VEN polls, and events are added and cancelled while it decides. -/
  | slow {y : Sides} (p : PollSetting) (f : Server → Server) : After lib h ven cb id x y → p.Fine lib ven y → (∀ e ∈ y.vtn.1.queue ven, e.status ≠ .cancelled) →
      Announced lib ven cb (p.start h ven y).calls (p.start h ven y).vtn.1 (f (p.start h ven y).vtn.1) →
      (∀ e ∈ (f (p.start h ven y).vtn.1).queue ven, e.id ≠ id) → After lib h ven cb id x (p.slow h ven f y)

theorem after_pursued {lib : Lib} {h : VenHandlers} {ven : String} {cb : String → Nat} {id : String} {x y : Sides} (hx : Pursued lib h ven cb x)
    (ha : After lib h ven cb id x y) : Pursued lib h ven cb y := by
  induction ha with
  | here => exact hx
  | change _ h1 _ ih => exact .change ih h1
  | other _ h1 h2 h3 h4 h5 h6 h7 ih => exact .other ih h1 h2 h3 h4 h5 h6 h7
  | log clock _ ih => exact .log clock ih
  | forget clock _ hf ih => exact .forget clock ih hf
  | poll p _ hp ih => exact .poll p ih hp
  | slow p f _ hp hl h1 _ ih => exact .slow p f ih hp hl h1

theorem followed_pursued {lib : Lib} {h : VenHandlers} {ven : String} {cb : String → Nat} {x : Sides} (hx : Followed lib h ven cb x) : Pursued lib h ven cb x := by
  induction hx with
  | start cache log h => exact .start cache log h
  | add _ h1 h2 h3 h4 h5 h6 h7 ih => exact .change ih (.add .same h1 h2 h3 h4 h5 h6 h7)
  | cancel id _ ih => exact .change ih (.cancel id .same)
  | other _ h1 h2 h3 h4 h5 h6 h7 ih => exact .other ih h1 h2 h3 h4 h5 h6 h7
  | log clock _ ih => exact .log clock ih
  | forget clock _ hf ih => exact .forget clock ih hf
  | poll p _ hp ih => exact .poll p ih hp

/-- The form of a poll: events are handed out, something is done, and answers arrive. -/
theorem slow_form {p : PollSetting} {lib : Lib} {h : VenHandlers} (ht : h.Total) {ven : String} {cb : String → Nat} {x : Sides} {f : Server → Server} (hi : InStep lib ven x)
    (hp : p.Fine lib ven x) (hx : Core h ven cb x)
    (ha : Announced lib ven cb (p.start h ven x).calls (p.start h ven x).vtn.1 (f (p.start h ven x).vtn.1)) :
    (∀ e ∈ (p.start h ven x).vtn.1.queue ven, ∃ a ∈ x.vtn.1.queue ven, a.id = e.id) ∧
    (Dict.keys (f (p.start h ven x).vtn.1).callbacks).Nodup ∧
    ∃ effects rs, (∀ f ∈ effects, ∃ n, f = .delivered n) ∧
      (p.slow h ven f x).vtn = ((respondAll p.env (f (p.start h ven x).vtn.1) ven rs).1, x.vtn.2 ++ effects ++ (respondAll p.env (f (p.start h ven x).vtn.1) ven rs).2.1) := by
  have hnone : (pollStart p.k p.c p.env h p.vtnClock p.venClock p.secure p.peer (.str ven) x).2 = none →
      (p.slow h ven f x).vtn = (f (p.start h ven x).vtn.1, (p.start h ven x).vtn.2) := by
    intro hn
    have hsame : p.round h ven x = p.start h ven x := by
      rw [← c110_halves]
      simp only [PollSetting.slow, hn, pollFinish, PollSetting.start]
      rfl
    rw [slow_none hn, hsame]
    rfl
  cases hflag : x.vtn.1.flag ven with
  | false =>
    have hn := start_nothing (h := h) hi.ready hp hflag
    have hsame : p.start h ven x = x := by
      have : p.round h ven x = p.start h ven x := by
        rw [← c110_halves]
        simp only [PollSetting.slow, hn, pollFinish, PollSetting.start]
        rfl
      rw [← this, PollSetting.round, c87_nothing_new hp.con (fun txt => hp.asked _ _ txt) (fun q txt => hp.taken _ q txt) hi.internal hflag]
    have h1 := hnone hn
    rw [hsame] at ha h1 ⊢
    refine ⟨fun e he => ⟨e, he, rfl⟩, (core_announced hx ha).nodup, [], [], by simp, ?_⟩
    rw [h1]
    simp [respondAll]
  | true =>
    obtain ⟨es, d, k⟩ := round_heard ht hi.ready hp hflag
    obtain ⟨s1, htake⟩ := d.handed
    obtain ⟨vs, s', effects, v1, v2, -, -⟩ := k.told hx.unshared
    have hcore := core_handed hx htake v2 (deliverAll_delivered p.env s1.delivery es)
    have hids : ∀ e ∈ ({ s1 with updated := Dict.set s1.updated ven false } : Server).queue ven, ∃ a ∈ x.vtn.1.queue ven, a.id = e.id := by
      intro e he
      obtain ⟨a, ha, j, rfl⟩ := handed_from htake (kept_handed htake he).1
      exact ⟨a, ha, ((refresh_members ..).2.2.1).symm⟩
    by_cases hne : es = []
    · subst hne
      have hs := start_empty (h := h) hi.ready hp hflag htake
      have h1 := hnone (by rw [hs])
      simp only [List.map_nil, decideAll, Prod.mk.injEq] at v2
      obtain ⟨rfl, hcalls, -⟩ := v2
      rw [← hcalls] at hcore
      rw [PollSetting.start, hs] at ha h1 ⊢
      refine ⟨hids, (core_announced hcore ha).nodup, (deliverAll p.env s1.delivery []).1, [], deliverAll_delivered _ _ _, ?_⟩
      rw [h1]
      simp [respondAll]
    · obtain ⟨-, -, h2⟩ := start_done (h := h) hi.ready hp hflag htake
      have hstart := h2 hne
      have f1 : s1.external = false := by
        have := (takeEvents_frame p.vtnClock x.vtn.1 ven).1
        rw [htake] at this
        exact this.trans hi.internal
      have hres : resultsOf h x.calls x.ven ⟨.str p.c.vtnId, .str p.c.newId, es.map (Event.arrived p.k.lib p.k.serverNow)⟩ =
          (s', (p.round h ven x).calls, false, fixResults (es.map (Event.arrived p.k.lib p.k.serverNow)) vs) := by
        unfold resultsOf; simp [hp.loud, v2]
      obtain ⟨hst1, hst2⟩ := onEventMessage_state h p.venClock x.calls x.ven ⟨.str p.c.vtnId, .str p.c.newId, es.map (Event.arrived p.k.lib p.k.serverNow)⟩
      rw [hres] at hst1 hst2
      simp only at hst1 hst2
      rw [PollSetting.start, hstart, hst2] at ha
      rw [PollSetting.start, hstart]
      simp only at ha ⊢
      have hmid := core_announced hcore ha
      have hext := announced_internal ha f1
      have hr1 := slow_done (h := h) (f := f) hi.ready hp hflag htake hne hext
      simp only at hr1
      rw [createdEvent_state, createdEvent_effects, if_neg (by rw [hext]; simp), if_neg (by rw [hext]; simp)] at hr1
      exact ⟨hids, hmid.nodup, (deliverAll p.env s1.delivery es).1, _, deliverAll_delivered _ _ _, congrArg Sides.vtn hr1⟩

/-- If the VTN has no event with an id any more, nobody is told of this event by a poll. -/
theorem slow_silent {p : PollSetting} {lib : Lib} {h : VenHandlers} (ht : h.Total) {ven : String} {cb : String → Nat} {x : Sides} {f : Server → Server} (hi : InStep lib ven x)
    (hp : p.Fine lib ven x) (hx : Core h ven cb x)
    (ha : Announced lib ven cb (p.start h ven x).calls (p.start h ven x).vtn.1 (f (p.start h ven x).vtn.1)) {id : String}
    (hno : ∀ e ∈ (f (p.start h ven x).vtn.1).queue ven, e.id ≠ id) :
    (∀ e ∈ (p.slow h ven f x).vtn.1.queue ven, e.id ≠ id) ∧ toldAbout ven id (p.slow h ven f x).vtn.2 = toldAbout ven id x.vtn.2 := by
  obtain ⟨-, hn, effects, rs, h1, h2⟩ := slow_form ht hi hp hx ha
  obtain ⟨-, r2, r3⟩ := respondAll_some p.env hp.quiet ven rs _ hn
  rw [h2]
  refine ⟨fun e he => hno e (r2 e he), ?_⟩
  simp only
  rw [toldAbout_append, toldAbout_append, toldAbout_delivered ven id h1, List.append_nil]
  rcases r3 id with ⟨-, h3⟩ | ⟨-, -, -, ⟨e, he, hi⟩, -⟩
  · rw [h3, List.append_nil]
  · exact absurd hi (hno e he)

theorem after_silent {lib : Lib} {h : VenHandlers} {ven : String} {cb : String → Nat} {id : String} {x y : Sides} (ht : h.Total) (hx : Pursued lib h ven cb x)
    (hno : ∀ e ∈ x.vtn.1.queue ven, e.id ≠ id) (ha : After lib h ven cb id x y) :
    (∀ e ∈ y.vtn.1.queue ven, e.id ≠ id) ∧ toldAbout ven id y.vtn.2 = toldAbout ven id x.vtn.2 := by
  induction ha with
  | here => exact ⟨hno, rfl⟩
  | change _ _ h2 ih => exact ⟨h2, ih.2⟩
  | @other y cache s' new _ h1 _ _ _ _ _ h7 ih =>
    refine ⟨fun e he => ih.1 e (by rw [← h1]; exact he), ?_⟩
    show toldAbout ven id (y.vtn.2 ++ new) = _
    rw [toldAbout_append, h7, List.append_nil]
    exact ih.2
  | log clock _ ih => exact ih
  | forget clock _ _ ih => exact ih
  | poll p hy hp ih =>
    have hpu := after_pursued hx hy
    have hi := raced_inStep ht (pursued_raced hpu)
    obtain ⟨h1, -⟩ := slow_form (f := fun s => s) ht hi hp (pursued_core ht hpu).1 .same
    have := slow_silent (f := fun s => s) ht hi hp (pursued_core ht hpu).1 .same (id := id) (fun e he => by
      obtain ⟨a, ha, hae⟩ := h1 e he
      rw [← hae]
      exact ih.1 a ha)
    rw [show (fun s : Server => s) = _root_.id from rfl, c110_halves] at this
    exact ⟨this.1, this.2.trans ih.2⟩
  | slow p f hy hp _ ha hn ih =>
    have hpu := after_pursued hx hy
    have := slow_silent ht (raced_inStep ht (pursued_raced hpu)) hp (pursued_core ht hpu).1 ha hn
    exact ⟨this.1, this.2.trans ih.2⟩

/-- **C107, refuted** for an event that ends before the VEN hears of it, also in the long run: whatever happens after the poll that took it from the VTN's queue, its
    callback is never told anything, unless an event with the same id is added. -/
theorem c107_never_told_violated {p : PollSetting} {lib : Lib} {h : VenHandlers} {ven : String} {cb : String → Nat} {x y : Sides} (ht : h.Total)
    (hx : Followed lib h ven cb x) (hp : p.Fine lib ven x) (hflag : x.vtn.1.flag ven = true) {e : Event} (he : e ∈ x.vtn.1.queue ven)
    (hc : e.status ≠ .cancelled) (hover : ∀ i, e.overAt (p.vtnClock i)) (hnew : x.ven.about e.id = none) (ha : After lib h ven cb e.id (p.round h ven x) y) :
    toldAbout ven e.id y.vtn.2 = [] := by
  obtain ⟨h1, h2⟩ := c107_over_violated ht hx hp hflag he hc hover hnew
  rw [(after_silent ht (.poll p (followed_pursued hx) hp) h2 ha).2]
  exact h1

/-- The VEN polls for the first time when the event is over; however often it polls afterwards, the callback is not called. -/
example (y : Sides) (ha : After plainLib easyHandlers "ven1" (fun _ => 7) event1.id ((pollAt halfPastOne).round easyHandlers "ven1" tellingStart) y) :
    toldAbout "ven1" event1.id y.vtn.2 = [] := by
  refine c107_never_told_violated easy_total telling_followed ?_ (by rfl) (e := event1) (by rw [queue_telling]; simp) (by decide +kernel)
    (fun i => ⟨by decide +kernel, (by decide +kernel : event1.activePeriod.dtstart + event1.activePeriod.duration ≤ halfPastOne)⟩) rfl ha
  refine pollAt_fine (by constructor <;> decide +kernel) rfl ?_ ?_ <;> rw [queue_telling] <;> intro e he <;> rw [List.mem_singleton.mp he]
  · rfl
  · intro h; cases h

end Openleadr
