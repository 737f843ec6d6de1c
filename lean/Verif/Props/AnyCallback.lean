import Verif.Props.SlowCallbacks
/-!
C107 and C110 for both kinds of callbacks: functions, which are called, and futures, which are given a result.
-/
namespace Openleadr

/-! ### What a callback was told -/

/-- What a callback was told: a function by the answers of this VEN about this event, a future by its result. -/
def heardBy (cb : Callback) (ven id : String) (log : List Effect) : List Effect :=
  match cb with
  | .func _ _ => toldAbout ven id log
  | .future f => log.filter (fun x => match x with | .resolved g _ => decide (g = f) | _ => false)

/-- Telling a callback. -/
def Callback.call (cb : Callback) (ven id opt : String) : Effect :=
  match cb with
  | .func c _ => .responded c ven id opt
  | .future f => .resolved f opt

/-- A future has no result yet. -/
def Callback.unused (s : Server) : Callback → Prop
  | .func _ _ => True
  | .future f => s.doneFutures.contains f = false

theorem heardBy_append (cb : Callback) (ven id : String) (a b : List Effect) : heardBy cb ven id (a ++ b) = heardBy cb ven id a ++ heardBy cb ven id b := by
  cases cb with
  | func c b => exact List.filter_append ..
  | future f => exact List.filter_append ..

theorem heardBy_delivered (cb : Callback) (ven id : String) {l : List Effect} (h : ∀ f ∈ l, ∃ n, f = .delivered n) : heardBy cb ven id l = [] := by
  cases cb with
  | func c b => exact toldAbout_delivered ven id h
  | future f =>
    refine List.filter_eq_nil_iff.mpr (fun g hg => ?_)
    obtain ⟨n, rfl⟩ := h g hg
    simp

theorem unused_frame {s s' : Server} (h : s'.doneFutures = s.doneFutures) (cb : Callback) : cb.unused s' ↔ cb.unused s := by
  cases cb with
  | func c b => exact Iff.rfl
  | future f => simp only [Callback.unused, h]

/-- The callbacks of the events are different futures, or functions. -/
def OwnFutures (cb : String → Callback) : Prop := ∀ id id' f, cb id = .future f → cb id' = .future f → id = id'

/-! ### Histories -/

/-- As `Changed`, and each event is added with its callback `cb id`, which has no result yet if it is a future. -/
inductive Posted (lib : Lib) (ven : String) (cb : String → Callback) (calls : List VenCall) (s : Server) : Server → Prop
  | same : Posted lib ven cb calls s s
  | add {s' s'' : Server} {a : AddArgs} {id : String} : Posted lib ven cb calls s s' → addEvent s' a = (s'', .ok (some id)) → a.ven = ven → a.Good lib →
      a.responseRequired = "always" → (∀ e ∈ s'.queue ven, e.id ≠ a.eventId) → (∀ c ∈ calls, c.event.id ≠ a.eventId) →
      a.callback = some (cb a.eventId) → (cb a.eventId).unused s' → Posted lib ven cb calls s s''
  | cancel {s' : Server} (id : String) : Posted lib ven cb calls s s' → Posted lib ven cb calls s (cancelEvent s' ven id)

/-- The histories of a VEN and its VTN, as for `Raced`, in which each event is added with a callback of either kind that nobody else is given or takes. -/
inductive Awaited (lib : Lib) (h : VenHandlers) (ven : String) (cb : String → Callback) : Sides → Prop
  /-- Both sides are started. -/
  | start (cache : NonceCache) (log : List Effect) : (∀ id, heardBy (cb id) ven id log = []) → Awaited lib h ven cb ⟨cache, (Server.init, log), ⟨[], []⟩, []⟩
  /-- Events are added and cancelled. -/
  | change {x : Sides} {s' : Server} : Awaited lib h ven cb x → Posted lib ven cb x.calls x.vtn.1 s' → Awaited lib h ven cb { x with vtn := (s', x.vtn.2) }
  /-- Something that does not concern this VEN: the events, polls and answers of others, with other callbacks. -/
  | other {x : Sides} {cache : NonceCache} {s' : Server} {new : List Effect} : Awaited lib h ven cb x → s'.queue ven = x.vtn.1.queue ven →
      s'.flag ven = x.vtn.1.flag ven → s'.external = x.vtn.1.external →
      (∀ e ∈ x.vtn.1.queue ven, Dict.get? s'.callbacks e.id = Dict.get? x.vtn.1.callbacks e.id) → (Dict.keys s'.callbacks).Nodup →
      (∀ id, ((cb id).unused x.vtn.1 → (cb id).unused s') ∧ heardBy (cb id) ven id new = []) → Awaited lib h ven cb ⟨cache, (s', x.vtn.2 ++ new), x.ven, x.calls⟩
  /-- The VEN logs the statuses of its events (client.py:1237-1249). -/
  | log {x : Sides} (clock : Nat → Int) : Awaited lib h ven cb x →
      Awaited lib h ven cb { x with ven := { x.ven with received := statusLog clock 0 x.ven.received } }
  /-- The VEN cleans up (client.py:1251-1260), and forgets no event that the VTN still has. -/
  | forget {x : Sides} (clock : Nat → Int) : Awaited lib h ven cb x →
      (∀ e ∈ x.vtn.1.queue ven, ∀ r ∈ x.ven.received, r.id = e.id → r ∈ cleanup clock x.ven.received) →
      Awaited lib h ven cb { x with ven := { x.ven with received := cleanup clock x.ven.received } }
  /-- The VEN polls, and decides at once. -/
  | poll {x : Sides} (p : PollSetting) : Awaited lib h ven cb x → p.Fine lib ven x → Awaited lib h ven cb (p.round h ven x)
  /-- The VEN polls, and events are added and cancelled while it decides. -/
  | slow {x : Sides} (p : PollSetting) (f : Server → Server) : Awaited lib h ven cb x → p.Fine lib ven x → (∀ e ∈ x.vtn.1.queue ven, e.status ≠ .cancelled) →
      Posted lib ven cb (p.start h ven x).calls (p.start h ven x).vtn.1 (f (p.start h ven x).vtn.1) → Awaited lib h ven cb (p.slow h ven f x)

theorem posted_changed {lib : Lib} {ven : String} {cb : String → Callback} {calls : List VenCall} {s s' : Server} (ha : Posted lib ven cb calls s s') :
    Changed lib ven calls s s' := by
  induction ha with
  | same => exact .same
  | add _ h1 h2 h3 h4 h5 h6 _ _ ih => exact .add ih h1 h2 h3 h4 h5 h6
  | cancel id _ ih => exact .cancel id ih

theorem awaited_raced {lib : Lib} {h : VenHandlers} {ven : String} {cb : String → Callback} {x : Sides} (hx : Awaited lib h ven cb x) : Raced lib h ven x := by
  induction hx with
  | start cache log _ => exact .start cache log
  | change _ hc ih => exact .change ih (posted_changed hc)
  | other _ h1 h2 h3 _ _ _ ih => exact .other ih h1 h2 h3
  | log clock _ ih => exact .log clock ih
  | forget clock _ hf ih => exact .forget clock ih hf
  | poll p _ hp ih => exact .poll p ih hp
  | slow p f _ hp hl hc ih => exact .slow p f ih hp hl (posted_changed hc)

theorem changed_internal {lib : Lib} {ven : String} {calls : List VenCall} {s s' : Server} (ha : Changed lib ven calls s s')
    (hs : s.external = false) : s'.external = false := by
  induction ha with
  | same => exact hs
  | add _ h1 _ _ _ _ _ _ => exact (added_state h1).2.1
  | @cancel s3 id _ ih =>
    rcases cancelEvent_cases s3 ven id with ⟨h, -⟩ | ⟨-, h⟩
    · rw [h]; exact ih
    · rw [h]; exact ih

/-! ### The answers -/

theorem heardBy_told {cb : String → Callback} (hcb : OwnFutures cb) {s : Server} {ven i : String} (opt : String)
    (hi : Dict.get? s.callbacks i = none ∨ Dict.get? s.callbacks i = some (cb i)) (id : String) :
    (id ≠ i → heardBy (cb id) ven id (told s ven i opt) = []) ∧
    (id = i → (Dict.get? s.callbacks id = some (cb id) → (cb id).unused s → heardBy (cb id) ven id (told s ven i opt) = [(cb id).call ven id opt]) ∧
      (Dict.get? s.callbacks id = none → heardBy (cb id) ven id (told s ven i opt) = [])) := by
  have hnil : heardBy (cb id) ven id [] = [] := by cases cb id <;> rfl
  refine ⟨fun hne => ?_, ?_⟩
  · rcases hi with h | h
    · simp only [told, h]; exact hnil
    · simp only [told, h]
      cases hc : cb i with
      | func c b =>
        cases hd : cb id with
        | func c' b' => simp [heardBy, toldAbout, hne.symm]
        | future f => simp [heardBy]
      | future g =>
        simp only
        split
        · exact hnil
        · cases hd : cb id with
          | func c' b' => simp [heardBy, toldAbout]
          | future f =>
            have : g ≠ f := fun h => hne (hcb id i f hd (by rw [hc, h]))
            simp [heardBy, this]
  · rintro rfl
    refine ⟨fun h hu => ?_, fun h => by simp only [told, h]; exact hnil⟩
    simp only [told, h]
    cases hd : cb id with
    | func c b => simp [heardBy, toldAbout, Callback.call]
    | future f =>
      rw [hd] at hu
      simp only [Callback.unused] at hu
      simp only [hu, Bool.false_eq_true, if_false]
      simp [heardBy, Callback.call]

theorem fireCallback_futures (env : Env) (t : Server) (ven : String) (r : EventResponse) (f : Nat) (h : Dict.get? t.callbacks r.eventId ≠ some (.future f)) :
    (fireCallback env t ven r).1.doneFutures.contains f = t.doneFutures.contains f := by
  simp only [fireCallback]
  cases hg : Dict.get? t.callbacks r.eventId with
  | none => rfl
  | some cb =>
    cases cb with
    | func c b => rfl
    | future g =>
      have hne : f ≠ g := fun h' => h (by rw [hg, h'])
      simp only
      split
      · rfl
      · simp [hne]

theorem respondOne_futures (env : Env) (s : Server) (ven : String) (r : EventResponse) (f : Nat) (h : Dict.get? s.callbacks r.eventId ≠ some (.future f)) :
    (respondOne env s ven r).1.doneFutures.contains f = s.doneFutures.contains f := by
  unfold respondOne
  cases hg : Dict.get? s.events ven with
  | none => rfl
  | some q =>
    simp only
    cases hf : q.find? (hasIdAndNumber r) with
    | none =>
      simp only
      split <;> rfl
    | some e =>
      simp only
      split
      · exact fireCallback_futures env { s with events := Dict.set s.events ven (eraseFirst (hasId r.eventId) q) } ven r f h
      · exact fireCallback_futures env s ven r f h

/-- One answer: it is refused and nothing changes, or the callback is told and gone. -/
theorem respondOne_any (env : Env) (hq : ∀ e, env.raises e = none) (s : Server) (ven : String) (r : EventResponse) (hn : (Dict.keys s.callbacks).Nodup) :
    ((respondOne env s ven r).1 = s ∧ (respondOne env s ven r).2.1 = []) ∨
      (∃ e ∈ s.queue ven, e.id = r.eventId) ∧ Dict.get? (respondOne env s ven r).1.callbacks r.eventId = none ∧
      (∀ id, id ≠ r.eventId → Dict.get? (respondOne env s ven r).1.callbacks id = Dict.get? s.callbacks id) ∧
      (respondOne env s ven r).2.1 = told s ven r.eventId r.optType := by
  unfold respondOne
  cases hg : Dict.get? s.events ven with
  | none => exact .inl ⟨rfl, rfl⟩
  | some q =>
    have hqq : s.queue ven = q := by simp [Server.queue, hg]
    simp only
    cases hf : q.find? (hasIdAndNumber r) with
    | none =>
      simp only
      split <;> exact .inl ⟨rfl, rfl⟩
    | some e =>
      have hin : ∃ e ∈ s.queue ven, e.id = r.eventId := by
        have h2 := List.find?_some hf
        simp only [hasIdAndNumber, Bool.and_eq_true, beq_iff_eq] at h2
        exact ⟨e, by rw [hqq]; exact List.mem_of_find?_eq_some hf, h2.1⟩
      simp only
      split
      · obtain ⟨-, h2, h3, h4⟩ := fireCallback_some env hq s { s with events := Dict.set s.events ven (eraseFirst (hasId r.eventId) q) } ven r rfl rfl hn
        exact .inr ⟨hin, h2, h3, h4⟩
      · obtain ⟨-, h2, h3, h4⟩ := fireCallback_some env hq s s ven r rfl rfl hn
        exact .inr ⟨hin, h2, h3, h4⟩

/-- What the answers do to the callback of one event: it is as before and was not told anything, or is gone and was told one of the answers. -/
def HeardOf (cb : Callback) (ven id : String) (s s' : Server) (eff : List Effect) (rs : List EventResponse) : Prop :=
  (Dict.get? s'.callbacks id = Dict.get? s.callbacks id ∧ heardBy cb ven id eff = [] ∧ (cb.unused s → cb.unused s')) ∨
  ∃ r ∈ rs, r.eventId = id ∧ (∃ e ∈ s.queue ven, e.id = id) ∧ Dict.get? s'.callbacks id = none ∧
    (Dict.get? s.callbacks id = some cb → cb.unused s → heardBy cb ven id eff = [cb.call ven id r.optType]) ∧
    (Dict.get? s.callbacks id = none → heardBy cb ven id eff = [])

theorem heardBy_nil (cb : Callback) (ven id : String) : heardBy cb ven id [] = [] := by cases cb <;> rfl

theorem answered_one {cb : String → Callback} (hcb : OwnFutures cb) (env : Env) (hq : ∀ e, env.raises e = none) (ven : String) (r : EventResponse) (rs : List EventResponse)
    (s : Server) (hn : (Dict.keys s.callbacks).Nodup) (hs : ∀ e ∈ s.queue ven, Dict.get? s.callbacks e.id = none ∨ Dict.get? s.callbacks e.id = some (cb e.id)) (id : String) :
    HeardOf (cb id) ven id s (respondOne env s ven r).1 (respondOne env s ven r).2.1 (r :: rs) := by
  rcases respondOne_any env hq s ven r hn with ⟨h1, h2⟩ | ⟨⟨e, he, her⟩, h2, h3, h4⟩
  · rw [h1, h2]
    exact .inl ⟨rfl, heardBy_nil .., fun h => h⟩
  · have hi := hs e he
    rw [her] at hi
    obtain ⟨t1, t2⟩ := heardBy_told (ven := ven) hcb r.optType hi id
    rw [h4]
    by_cases hid : id = r.eventId
    · obtain ⟨t3, t4⟩ := t2 hid
      exact .inr ⟨r, by simp, hid.symm, ⟨e, he, her.trans hid.symm⟩, by rw [hid]; exact h2, t3, t4⟩
    · refine .inl ⟨h3 id hid, t1 hid, fun hu => ?_⟩
      cases hc : cb id with
      | func c b => trivial
      | future f =>
        rw [hc] at hu
        simp only [Callback.unused] at hu ⊢
        rw [respondOne_futures env s ven r f ?_]
        · exact hu
        · intro hg
          rw [hg] at hi
          rcases hi with h | h
          · cases h
          · exact hid (hcb id r.eventId f hc (Option.some.inj h).symm)

/-- All answers. -/
theorem respondAll_any {cb : String → Callback} (hcb : OwnFutures cb) (env : Env) (hq : ∀ e, env.raises e = none) (ven : String) (rs : List EventResponse) (s : Server)
    (hn : (Dict.keys s.callbacks).Nodup) (hs : ∀ e ∈ s.queue ven, Dict.get? s.callbacks e.id = none ∨ Dict.get? s.callbacks e.id = some (cb e.id)) (id : String) :
    HeardOf (cb id) ven id s (respondAll env s ven rs).1 (respondAll env s ven rs).2.1 rs := by
  induction rs generalizing s with
  | nil => exact .inl ⟨rfl, heardBy_nil .., fun h => h⟩
  | cons r rs ih =>
    have hone := answered_one hcb env hq ven r rs s hn hs
    obtain ⟨h1, h2, -⟩ := respondOne_some env hq s ven r hn
    simp only [respondAll]
    generalize respondOne env s ven r = y at hone h1 h2
    obtain ⟨s', eff, o⟩ := y
    simp only at hone h1 h2
    cases o with
    | some err => exact hone id
    | none =>
      have hs' : ∀ e ∈ s'.queue ven, Dict.get? s'.callbacks e.id = none ∨ Dict.get? s'.callbacks e.id = some (cb e.id) := by
        intro e he
        rcases hone e.id with ⟨a, -⟩ | ⟨-, -, -, -, a, -⟩
        · rw [a]; exact hs e (h2 e he)
        · exact .inl a
      have hrest := ih s' h1 hs'
      simp only
      rw [HeardOf, heardBy_append]
      rcases hone id with ⟨a1, a2, a3⟩ | ⟨r0, b1, b2, b3, b4, b5, b6⟩
      · rw [a2, List.nil_append]
        rcases hrest with ⟨c1, c2, c3⟩ | ⟨r1, d1, d2, ⟨e, d3, d4⟩, d5, d6, d7⟩
        · exact .inl ⟨c1.trans a1, c2, fun h => c3 (a3 h)⟩
        · rw [a1] at d6 d7
          exact .inr ⟨r1, by simp [d1], d2, ⟨e, h2 e d3, d4⟩, d5, fun g hu => d6 g (a3 hu), d7⟩
      · have : Dict.get? (respondAll env s' ven rs).1.callbacks id = none ∧ heardBy (cb id) ven id (respondAll env s' ven rs).2.1 = [] := by
          rcases hrest with ⟨c1, c2, -⟩ | ⟨r1, d1, d2, d3, d5, d6, d7⟩
          · exact ⟨c1.trans b4, c2⟩
          · exact ⟨d5, d7 b4⟩
        rw [this.2, List.append_nil]
        exact .inr ⟨r0, b1, b2, b3, this.1, b5, b6⟩

/-! ### The invariant -/

/-- The callback of an event waits, or was told once what a handler had answered. -/
def CallbackState (h : VenHandlers) (ven : String) (cb : String → Callback) (x : Sides) (id : String) : Prop :=
  (Dict.get? x.vtn.1.callbacks id = some (cb id) ∧ (cb id).unused x.vtn.1 ∧ heardBy (cb id) ven id x.vtn.2 = []) ∨
  (Dict.get? x.vtn.1.callbacks id = none ∧ ∃ v, Voiced h x.calls id v ∧ heardBy (cb id) ven id x.vtn.2 = [(cb id).call ven id (optText v)])

structure AnyCore (h : VenHandlers) (ven : String) (cb : String → Callback) (x : Sides) : Prop where
  nodup : (Dict.keys x.vtn.1.callbacks).Nodup
  said : AllVoiced h x.calls x.ven
  pending : ∀ e ∈ x.vtn.1.queue ven, CallbackState h ven cb x e.id
  once : ∀ id, heardBy (cb id) ven id x.vtn.2 = [] ∨ ∃ v, Voiced h x.calls id v ∧ heardBy (cb id) ven id x.vtn.2 = [(cb id).call ven id (optText v)]

theorem any_add {h : VenHandlers} {cb : String → Callback} {x : Sides} {a : AddArgs} {s' : Server} {id : String}
    (hx : AnyCore h a.ven cb x) (hadd : addEvent x.vtn.1 a = (s', .ok (some id))) (hc : ∀ c ∈ x.calls, c.event.id ≠ a.eventId)
    (hq : ∀ e ∈ x.vtn.1.queue a.ven, e.id ≠ a.eventId) (hcb : a.callback = some (cb a.eventId)) (hu : (cb a.eventId).unused x.vtn.1) :
    AnyCore h a.ven cb { x with vtn := (s', x.vtn.2) } := by
  obtain ⟨rfl, hint, -, p, hp, hflag, hqueue, hcs, -, hdone⟩ := added_state hadd
  rw [hcb] at hcs
  have hcs : s'.callbacks = Dict.set x.vtn.1.callbacks a.eventId (cb a.eventId) := hcs
  have hid : (addedEvent a p).id = a.eventId := rfl
  have hm : ∀ e, e ∈ s'.queue a.ven ↔ e ∈ x.vtn.1.queue a.ven ∨ e = addedEvent a p := by intro e; rw [hqueue]; simp
  have hsame : ∀ i, i ≠ a.eventId → Dict.get? s'.callbacks i = Dict.get? x.vtn.1.callbacks i := fun i hi => by rw [hcs, Dict.get?_set_other _ _ _ _ hi]
  have hself : Dict.get? s'.callbacks a.eventId = some (cb a.eventId) := by rw [hcs, Dict.get?_set_self]
  have hsilent : heardBy (cb a.eventId) a.ven a.eventId x.vtn.2 = [] := by
    rcases hx.once a.eventId with h | ⟨v, hv, -⟩
    · exact h
    · obtain ⟨c, h1, h2⟩ := voiced_called hv
      exact absurd h2 (hc c h1)
  refine ⟨?_, hx.said, ?_, hx.once⟩
  · show (Dict.keys s'.callbacks).Nodup
    rw [hcs]
    exact Dict.nodup_keys_set _ _ _ hx.nodup
  · intro e he
    rcases (hm e).mp he with he | rfl
    · have := hx.pending e he
      unfold CallbackState at this ⊢
      rw [← hsame _ (hq e he), ← unused_frame hdone] at this
      exact this
    · rw [hid]
      exact .inl ⟨hself, (unused_frame hdone _).mpr hu, hsilent⟩

theorem any_cancel {h : VenHandlers} {ven : String} {cb : String → Callback} {x : Sides} (id : String) (hx : AnyCore h ven cb x) :
    AnyCore h ven cb { x with vtn := (cancelEvent x.vtn.1 ven id, x.vtn.2) } := by
  rcases cancelEvent_cases x.vtn.1 ven id with ⟨h, -⟩ | ⟨-, h⟩
  · rw [h]; exact hx
  · have hqueue : (cancelEvent x.vtn.1 ven id).queue ven = updateFirst (hasId id) cancelled (x.vtn.1.queue ven) := by
      rw [h]; simp [Server.queue, Dict.get?_set_self]
    have hcs : (cancelEvent x.vtn.1 ven id).callbacks = x.vtn.1.callbacks := by rw [h]
    have hdone : (cancelEvent x.vtn.1 ven id).doneFutures = x.vtn.1.doneFutures := by rw [h]
    refine ⟨?_, hx.said, ?_, hx.once⟩
    · show (Dict.keys (cancelEvent x.vtn.1 ven id).callbacks).Nodup
      rw [hcs]; exact hx.nodup
    · intro e he
      have he : e ∈ (cancelEvent x.vtn.1 ven id).queue ven := he
      have hm : ∃ a ∈ x.vtn.1.queue ven, a.id = e.id := by
        rw [hqueue] at he
        rcases updated_from he with h | ⟨a, h1, -, h2⟩
        · exact ⟨e, h, rfl⟩
        · exact ⟨a, h1, by rw [h2]; rfl⟩
      obtain ⟨a, ha, hae⟩ := hm
      have := hx.pending a ha
      unfold CallbackState at this ⊢
      rw [hae, ← hcs, ← unused_frame hdone] at this
      exact this

theorem any_posted {lib : Lib} {h : VenHandlers} {ven : String} {cb : String → Callback} {x : Sides} {s' : Server} (hx : AnyCore h ven cb x)
    (ha : Posted lib ven cb x.calls x.vtn.1 s') : AnyCore h ven cb { x with vtn := (s', x.vtn.2) } := by
  induction ha with
  | same => exact hx
  | @add s1 s2 a id _ h1 h2 _ _ h5 h6 h7 h8 ih =>
    subst h2
    exact any_add (x := ⟨x.cache, (s1, x.vtn.2), x.ven, x.calls⟩) ih h1 h6 h5 h7 h8
  | @cancel s1 id _ ih => exact any_cancel (x := ⟨x.cache, (s1, x.vtn.2), x.ven, x.calls⟩) id ih

/-- The answers arrive. -/
theorem any_answers {h : VenHandlers} {ven : String} {cb : String → Callback} (hcb : OwnFutures cb) {x : Sides} (env : Env) (hq : ∀ e, env.raises e = none)
    (hx : AnyCore h ven cb x) {rs : List EventResponse} (hrs : ∀ r ∈ rs, ∃ v, Voiced h x.calls r.eventId v ∧ r.optType = optText v) :
    (∀ e ∈ x.vtn.1.queue ven, CallbackState h ven cb { x with vtn := ((respondAll env x.vtn.1 ven rs).1, x.vtn.2 ++ (respondAll env x.vtn.1 ven rs).2.1) } e.id) ∧
    AnyCore h ven cb { x with vtn := ((respondAll env x.vtn.1 ven rs).1, x.vtn.2 ++ (respondAll env x.vtn.1 ven rs).2.1) } := by
  obtain ⟨h1, h2, -⟩ := respondAll_some env hq ven rs x.vtn.1 hx.nodup
  have h3 := respondAll_any hcb env hq ven rs x.vtn.1 hx.nodup (fun e he => by
    rcases hx.pending e he with h | h
    · exact .inr h.1
    · exact .inl h.1)
  have hev : ∀ e ∈ x.vtn.1.queue ven, CallbackState h ven cb { x with vtn := ((respondAll env x.vtn.1 ven rs).1, x.vtn.2 ++ (respondAll env x.vtn.1 ven rs).2.1) } e.id := by
    intro e he
    simp only [CallbackState, heardBy_append]
    rcases h3 e.id with ⟨a1, a2, a3⟩ | ⟨r, a1, a2, -, a4, a5, a6⟩
    · rw [a1, a2, List.append_nil]
      rcases hx.pending e he with ⟨b1, b2, b3⟩ | b
      · exact .inl ⟨b1, a3 b2, b3⟩
      · exact .inr b
    · refine .inr ⟨a4, ?_⟩
      rcases hx.pending e he with ⟨b1, b2, b3⟩ | ⟨b1, v, b2, b3⟩
      · obtain ⟨v, c1, c2⟩ := hrs r a1
        refine ⟨v, by rw [← a2]; exact c1, ?_⟩
        rw [b3, a5 b1 b2, c2]
        rfl
      · exact ⟨v, b2, by rw [a6 b1, b3]; rfl⟩
  refine ⟨hev, h1, hx.said, fun e he => hev e (h2 e he), fun id => ?_⟩
  rcases h3 id with ⟨-, a2, -⟩ | ⟨-, -, -, ⟨e, he, rfl⟩, -⟩
  · simp only [heardBy_append]
    rw [a2, List.append_nil]
    exact hx.once id
  · rcases hev e he with h | h
    · exact .inl h.2.2
    · exact .inr h.2

/-! ### Polls -/

/-- The form of a poll: events are handed out and the handlers are asked, something is done, and the answers of the handlers arrive. -/
theorem slow_parts {p : PollSetting} {lib : Lib} {h : VenHandlers} (ht : h.Total) {ven : String} {x : Sides} {f : Server → Server} (hi : InStep lib ven x)
    (hp : p.Fine lib ven x) (hv : AllVoiced h x.calls x.ven) (hext : (p.start h ven x).vtn.1.external = false → (f (p.start h ven x).vtn.1).external = false) :
    (p.start h ven x).vtn.1.callbacks = x.vtn.1.callbacks ∧ (p.start h ven x).vtn.1.doneFutures = x.vtn.1.doneFutures ∧
    (∀ e ∈ (p.start h ven x).vtn.1.queue ven, ∃ a ∈ x.vtn.1.queue ven, a.id = e.id) ∧ (∃ more, (p.start h ven x).calls = x.calls ++ more) ∧
    ∃ cache effects rs s', (∀ f ∈ effects, ∃ n, f = .delivered n) ∧ AllVoiced h (p.start h ven x).calls s' ∧
      (∀ r ∈ rs, ∃ v, Voiced h (p.start h ven x).calls r.eventId v ∧ r.optType = optText v) ∧
      p.slow h ven f x = ⟨cache, ((respondAll p.env (f (p.start h ven x).vtn.1) ven rs).1,
        x.vtn.2 ++ effects ++ (respondAll p.env (f (p.start h ven x).vtn.1) ven rs).2.1), s', (p.start h ven x).calls⟩ := by
  have hnone : (pollStart p.k p.c p.env h p.vtnClock p.venClock p.secure p.peer (.str ven) x).2 = none →
      p.slow h ven f x = ⟨(p.start h ven x).cache, (f (p.start h ven x).vtn.1, (p.start h ven x).vtn.2), (p.start h ven x).ven, (p.start h ven x).calls⟩ := by
    intro hn
    have hsame : p.round h ven x = p.start h ven x := by
      rw [← c110_halves]
      simp only [PollSetting.slow, hn, pollFinish, PollSetting.start]
      rfl
    rw [slow_none hn, hsame]
    rfl
  cases hflag : x.vtn.1.flag ven with
  | false =>
    have hn := start_nothing (h := h) hi.ready hp hflag
    have hsame : p.start h ven x = x := by
      have : p.round h ven x = p.start h ven x := by
        rw [← c110_halves]
        simp only [PollSetting.slow, hn, pollFinish, PollSetting.start]
        rfl
      rw [← this, PollSetting.round, c87_nothing_new hp.con (fun txt => hp.asked _ _ txt) (fun q txt => hp.taken _ q txt) hi.internal hflag]
    have h1 := hnone hn
    rw [hsame] at h1 ⊢
    refine ⟨rfl, rfl, fun e he => ⟨e, he, rfl⟩, ⟨[], by simp⟩, x.cache, [], [], x.ven, by simp, hv, by simp, ?_⟩
    rw [h1]
    simp [respondAll]
  | true =>
    obtain ⟨es, d, k⟩ := round_heard ht hi.ready hp hflag
    obtain ⟨s1, htake⟩ := d.handed
    have hframe := takeEvents_frame p.vtnClock x.vtn.1 ven
    rw [htake] at hframe
    have hcb : s1.callbacks = x.vtn.1.callbacks := hframe.2.2.1
    have hdone : s1.doneFutures = x.vtn.1.doneFutures := by simp_all
    have hids : ∀ e ∈ ({ s1 with updated := Dict.set s1.updated ven false } : Server).queue ven, ∃ a ∈ x.vtn.1.queue ven, a.id = e.id := by
      intro e he
      obtain ⟨a, ha, j, rfl⟩ := handed_from htake (kept_handed htake he).1
      exact ⟨a, ha, ((refresh_members ..).2.2.1).symm⟩
    by_cases hne : es = []
    · subst hne
      have hs := start_empty (h := h) hi.ready hp hflag htake
      have h1 := hnone (by rw [hs])
      rw [PollSetting.start, hs] at h1 ⊢
      refine ⟨hcb, hdone, hids, ⟨[], by simp⟩, x.cache, (deliverAll p.env s1.delivery []).1, [], x.ven, deliverAll_delivered _ _ _, hv, by simp, ?_⟩
      rw [h1]
      simp [respondAll]
    · obtain ⟨-, -, h2⟩ := start_done (h := h) hi.ready hp hflag htake
      have hstart := h2 hne
      have hd' : Distinct (es.map (Event.arrived p.k.lib p.k.serverNow)) := List.pairwise_map.mpr (handed_distinct htake hi.distinct).1
      have hrem : Remembered x.ven (es.map (Event.arrived p.k.lib p.k.serverNow)) := by
        intro e' he' r hr hm
        obtain ⟨e, he, rfl⟩ := List.mem_map.mp he'
        obtain ⟨a, ha, j, rfl⟩ := handed_from htake he
        have hid : ((refresh (p.vtnClock j) (p.vtnClock (j + 1)) a).arrived p.k.lib p.k.serverNow).id = a.id := (refresh_members ..).2.2.1
        have hmod : ((refresh (p.vtnClock j) (p.vtnClock (j + 1)) a).arrived p.k.lib p.k.serverNow).modnum = a.modnum := refresh_modnum ..
        rw [hid] at hr ⊢
        rw [hmod] at hm
        exact hi.ready.below a ha (by simp [VenState.about, hr, hm])
      obtain ⟨s', vs, hda, -, -⟩ := decideAll_justified h ht (es.map (Event.arrived p.k.lib p.k.serverNow)) x.calls x.ven hd' hrem
      have hres : resultsOf h x.calls x.ven ⟨.str p.c.vtnId, .str p.c.newId, es.map (Event.arrived p.k.lib p.k.serverNow)⟩ =
          (s', x.calls ++ dueCalls x.ven (es.map (Event.arrived p.k.lib p.k.serverNow)), false, fixResults (es.map (Event.arrived p.k.lib p.k.serverNow)) vs) := by
        unfold resultsOf; simp [hp.loud, hda]
      obtain ⟨hst1, hst2⟩ := onEventMessage_state h p.venClock x.calls x.ven ⟨.str p.c.vtnId, .str p.c.newId, es.map (Event.arrived p.k.lib p.k.serverNow)⟩
      rw [hres] at hst1 hst2
      simp only at hst1 hst2
      have hent := entries_onEventMessage h p.venClock x.calls x.ven ⟨.str p.c.vtnId, .str p.c.newId, es.map (Event.arrived p.k.lib p.k.serverNow)⟩
      rw [hres] at hent
      simp only at hent
      obtain ⟨hv1, hv2⟩ := voiced_decideAll h (es.map (Event.arrived p.k.lib p.k.serverNow)) x.calls x.ven hv
      have hvoiced := hv2 vs (by rw [hda])
      rw [hda] at hvoiced hv1
      rw [PollSetting.start, hstart] at hext
      rw [PollSetting.start, hstart]
      simp only at hext ⊢
      replace hext := hext (hframe.1.trans hi.internal)
      have hr1 := slow_done (h := h) (f := f) hi.ready hp hflag htake hne hext
      simp only at hr1
      rw [hst1, hst2, hent, createdEvent_state, createdEvent_effects, if_neg (by rw [hext]; simp), if_neg (by rw [hext]; simp)] at hr1
      rw [hst2]
      refine ⟨hcb, hdone, hids, ⟨_, rfl⟩, _, (deliverAll p.env s1.delivery es).1, _, s', deliverAll_delivered _ _ _, hv1, ?_, hr1⟩
      intro r hr
      obtain ⟨r', hr', rfl⟩ := List.mem_map.mp hr
      obtain ⟨q, hq', h1, -, h3, -⟩ := responsesFor_mem _ _ _ _ _ _ hr'
      refine ⟨q.2, ?_, ?_⟩
      · have := hvoiced q hq'
        rw [h1] at this
        exact this
      · show (r'.optType.text?).getD "" = _
        rw [h3, sent, optText]
        by_cases c1 : q.2 = .str "optIn"
        · rw [c1]; decide
        · by_cases c2 : q.2 = .str "optOut"
          · rw [c2]; decide
          · rw [if_neg (by simp [c1, c2]), if_neg c1]; rfl

/-- Handing out the events, and asking the handlers. -/
theorem any_started {p : PollSetting} {h : VenHandlers} {ven : String} {cb : String → Callback} {x : Sides} (hx : AnyCore h ven cb x)
    (h1 : (p.start h ven x).vtn.1.callbacks = x.vtn.1.callbacks) (h2 : (p.start h ven x).vtn.1.doneFutures = x.vtn.1.doneFutures)
    (h3 : ∀ e ∈ (p.start h ven x).vtn.1.queue ven, ∃ a ∈ x.vtn.1.queue ven, a.id = e.id) (h4 : ∃ more, (p.start h ven x).calls = x.calls ++ more)
    {cache : NonceCache} {effects : List Effect} {s' : VenState} (h5 : ∀ f ∈ effects, ∃ n, f = .delivered n) (h6 : AllVoiced h (p.start h ven x).calls s') :
    (∀ e ∈ x.vtn.1.queue ven, CallbackState h ven cb ⟨cache, ((p.start h ven x).vtn.1, x.vtn.2 ++ effects), s', (p.start h ven x).calls⟩ e.id) ∧
    AnyCore h ven cb ⟨cache, ((p.start h ven x).vtn.1, x.vtn.2 ++ effects), s', (p.start h ven x).calls⟩ := by
  obtain ⟨more, h4⟩ := h4
  have hev : ∀ e ∈ x.vtn.1.queue ven, CallbackState h ven cb ⟨cache, ((p.start h ven x).vtn.1, x.vtn.2 ++ effects), s', (p.start h ven x).calls⟩ e.id := by
    intro e he
    simp only [CallbackState, heardBy_append, heardBy_delivered _ _ _ h5, List.append_nil, h1, unused_frame h2]
    rcases hx.pending e he with b | ⟨b1, v, b2, b3⟩
    · exact .inl b
    · exact .inr ⟨b1, v, by rw [h4]; exact voiced_append more b2, b3⟩
  refine ⟨hev, by rw [h1]; exact hx.nodup, h6, fun e he => ?_, fun id => ?_⟩
  · obtain ⟨a, ha, hae⟩ := h3 e he
    rw [← hae]
    exact hev a ha
  · simp only [heardBy_append, heardBy_delivered _ _ _ h5, List.append_nil]
    rcases hx.once id with b | ⟨v, b2, b3⟩
    · exact .inl b
    · exact .inr ⟨v, by rw [h4]; exact voiced_append more b2, b3⟩

theorem any_slow {p : PollSetting} {lib : Lib} {h : VenHandlers} (ht : h.Total) {ven : String} {cb : String → Callback} (hcb : OwnFutures cb) {x : Sides} {f : Server → Server}
    (hi : InStep lib ven x) (hp : p.Fine lib ven x) (hx : AnyCore h ven cb x)
    (ha : Posted lib ven cb (p.start h ven x).calls (p.start h ven x).vtn.1 (f (p.start h ven x).vtn.1)) : AnyCore h ven cb (p.slow h ven f x) := by
  obtain ⟨h1, h2, h3, h4, cache, effects, rs, s', h5, h6, h7, h8⟩ := slow_parts (f := f) ht hi hp hx.said (changed_internal (posted_changed ha))
  obtain ⟨-, hst⟩ := any_started (cache := cache) hx h1 h2 h3 h4 h5 h6
  have hmid := any_posted hst ha
  rw [h8]
  exact (any_answers hcb p.env hp.quiet hmid h7).2

/-- After a poll without anything in between. -/
theorem any_told {p : PollSetting} {lib : Lib} {h : VenHandlers} (ht : h.Total) {ven : String} {cb : String → Callback} (hcb : OwnFutures cb) {x : Sides} (hi : InStep lib ven x)
    (hp : p.Fine lib ven x) (hx : AnyCore h ven cb x) (hcalm : Calm ven x) :
    (∀ e ∈ (p.round h ven x).vtn.1.queue ven, Dict.get? (p.round h ven x).vtn.1.callbacks e.id = none) ∧
    ∀ e ∈ x.vtn.1.queue ven, (e.status = .cancelled ∨ ∀ i, ¬ e.overAt (p.vtnClock i)) →
      ∃ v, Voiced h (p.round h ven x).calls e.id v ∧ heardBy (cb e.id) ven e.id (p.round h ven x).vtn.2 = [(cb e.id).call ven e.id (optText v)] := by
  cases hflag : x.vtn.1.flag ven with
  | false =>
    have : p.round h ven x = x := c87_nothing_new hp.con (fun txt => hp.asked _ _ txt) (fun q txt => hp.taken _ q txt) hi.internal hflag
    rw [this]
    refine ⟨hcalm hflag, fun e he _ => ?_⟩
    rcases hx.pending e he with ⟨hb, -⟩ | h1
    · rw [hcalm hflag e he] at hb; cases hb
    · exact h1.2
  | true =>
    obtain ⟨es, d, k⟩ := round_heard ht hi.ready hp hflag
    obtain ⟨s1, htake⟩ := d.handed
    obtain ⟨t, rs, c1, c2, c3, c4, c5, c6⟩ := k.answers
    obtain ⟨-, r2, -⟩ := respondAll_callbacks p.env hp.quiet ven rs t c3 (by rw [c1]; exact hx.nodup) c4
    rw [← c2] at r2
    have hgood : ∀ e ∈ es, e.responseRequired = some "always" := by
      intro e he
      obtain ⟨a, ha, j, rfl⟩ := handed_from htake he
      rw [(refresh_members ..).2.2.2]
      exact (hi.good a ha).2
    refine ⟨fun e he => ?_, fun e he hr => ?_⟩
    · obtain ⟨h1, h2, -⟩ := d.left e he
      obtain ⟨r, hr, hre⟩ := c6 e h1 ⟨hgood e h1, h2⟩
      rw [← hre]
      exact r2 r hr
    · obtain ⟨j, hj⟩ := running_handed htake he hr
      have hid : (refresh (p.vtnClock j) (p.vtnClock (j + 1)) e).id = e.id := (refresh_members ..).2.2.1
      have ha : (refresh (p.vtnClock j) (p.vtnClock (j + 1)) e).answered := by
        refine ⟨hgood _ hj, ?_⟩
        rw [refresh_status]
        split
        · simp
        · rename_i hc
          exact (not_over_iff e _).mpr ((hr.resolve_left hc) j)
      obtain ⟨r, hr', hre⟩ := c6 _ hj ha
      have hgone := r2 r hr'
      rw [hre, hid] at hgone
      -- the state of the callback
      obtain ⟨h1, h2, h3, h4, cache, effects, rs', s', h5, h6, h7, h8⟩ := slow_parts (f := fun s => s) ht hi hp hx.said (fun h => h)
      obtain ⟨hst1, hst⟩ := any_started (cache := cache) hx h1 h2 h3 h4 h5 h6
      have hround : p.round h ven x = p.slow h ven (fun s => s) x := (c110_halves ..).symm
      have hstate : CallbackState h ven cb (p.round h ven x) e.id := by
        rw [hround, h8]
        by_cases hin : ∃ a ∈ (p.start h ven x).vtn.1.queue ven, a.id = e.id
        · obtain ⟨a, ha, hae⟩ := hin
          rw [← hae]
          exact (any_answers hcb p.env hp.quiet hst h7).1 a ha
        · rcases respondAll_any hcb p.env hp.quiet ven rs' (p.start h ven x).vtn.1 hst.nodup (fun e he => by
            rcases hst.pending e he with h | h
            · exact .inr h.1
            · exact .inl h.1) e.id with ⟨a1, a2, a3⟩ | ⟨-, -, -, ⟨a, b1, b2⟩, -⟩
          · have := hst1 e he
            simp only [CallbackState, heardBy_append] at this ⊢
            rw [a1, a2, List.append_nil]
            rcases this with ⟨b1, b2, b3⟩ | b
            · exact .inl ⟨b1, a3 b2, b3⟩
            · exact .inr b
          · exact absurd ⟨a, b1, b2⟩ hin
      rcases hstate with h | h
      · rw [hgone] at h; cases h.1
      · exact h.2

theorem awaited_core {lib : Lib} {h : VenHandlers} {ven : String} {cb : String → Callback} {x : Sides} (ht : h.Total) (hcb : OwnFutures cb) (hx : Awaited lib h ven cb x) :
    AnyCore h ven cb x ∧ Calm ven x := by
  induction hx with
  | start cache log hlog =>
    refine ⟨⟨by simp [Server.init, Dict.keys], fun p hp => by simp at hp, ?_, fun id => .inl (hlog id)⟩, ?_⟩ <;>
      simp [Server.queue, Server.init, Dict.get?, Calm]
  | @change x s' hx ha ih =>
    refine ⟨any_posted ih.1 ha, fun hflag => ?_⟩
    rcases changed_flag (posted_changed ha) with h2 | h2
    · subst h2
      exact ih.2 hflag
    · exact absurd (h2.symm.trans hflag) (by simp)
  | @other x cache s' new _ h1 h2 h3 h4 h6 h7 ih =>
    have hl : ∀ id, heardBy (cb id) ven id (x.vtn.2 ++ new) = heardBy (cb id) ven id x.vtn.2 := fun id => by rw [heardBy_append, (h7 id).2, List.append_nil]
    refine ⟨⟨h6, ih.1.said, ?_, ?_⟩, ?_⟩
    · intro e he
      have he : e ∈ s'.queue ven := he
      rw [h1] at he
      simp only [CallbackState, hl, h4 e he]
      rcases ih.1.pending e he with ⟨b1, b2, b3⟩ | b
      · exact .inl ⟨b1, (h7 e.id).1 b2, b3⟩
      · exact .inr b
    · intro id
      simp only [hl]
      exact ih.1.once id
    · intro hflag e he
      have he : e ∈ s'.queue ven := he
      rw [h1] at he
      show Dict.get? s'.callbacks e.id = none
      rw [h4 e he]
      exact ih.2 (h2.symm.trans hflag) e he
  | log clock _ ih => exact ⟨⟨ih.1.nodup, ih.1.said, ih.1.pending, ih.1.once⟩, ih.2⟩
  | forget clock _ _ ih => exact ⟨⟨ih.1.nodup, ih.1.said, ih.1.pending, ih.1.once⟩, ih.2⟩
  | poll p hx hp ih =>
    have hi := raced_inStep ht (awaited_raced hx)
    refine ⟨?_, fun _ => (any_told ht hcb hi hp ih.1 ih.2).1⟩
    rw [← c110_halves]
    exact any_slow ht hcb hi hp ih.1 .same
  | @slow x p f hx hp hl ha ih =>
    have hi := raced_inStep ht (awaited_raced hx)
    refine ⟨any_slow ht hcb hi hp ih.1 ha, fun hflag => ?_⟩
    obtain ⟨-, -, h1, -⟩ := slow_changed ht hi hp hl (posted_changed ha)
    rcases changed_flag (posted_changed ha) with h2 | h2
    · have : p.slow h ven f x = p.round h ven x := by
        rw [← c110_halves, PollSetting.slow, PollSetting.slow]
        have h3 : f (pollStart p.k p.c p.env h p.vtnClock p.venClock p.secure p.peer (.str ven) x).1.vtn.1 =
          (pollStart p.k p.c p.env h p.vtnClock p.venClock p.secure p.peer (.str ven) x).1.vtn.1 := h2
        simp only [Sides.meanwhile, h3, id_eq]
      rw [this]
      exact (any_told ht hcb hi hp ih.1 ih.2).1
    · rw [h1, h2] at hflag
      cases hflag

/-! ### The theorems -/

/-- **C110** (partial: as for `c110_once_partial`, and each event is added with a callback that nobody else is given or takes, a function or a future of its own that has no
    result yet). However events were added and cancelled while the VEN was deciding, the callback of an event was told at most once about it – a function was called at most
    once, a future was given at most one result; and if it was told, it was told what a handler of the VEN answered when it was called for this event. -/
theorem c110_any_callback_partial {lib : Lib} {h : VenHandlers} {ven : String} {cb : String → Callback} {x : Sides} (ht : h.Total) (hcb : OwnFutures cb)
    (hx : Awaited lib h ven cb x) (id : String) :
    heardBy (cb id) ven id x.vtn.2 = [] ∨ ∃ v, Voiced h x.calls id v ∧ heardBy (cb id) ven id x.vtn.2 = [(cb id).call ven id (optText v)] :=
  (awaited_core ht hcb hx).1.once id

/-- **C110** (partial: as for `c110_any_callback_partial`). As soon as a poll is not disturbed, the callbacks of all events that are not over were told exactly once – the
    functions were called, the futures have a result –, and it was what a handler of the VEN answered when it was called for this event. -/
theorem c110_any_told_partial {lib : Lib} {h : VenHandlers} {ven : String} {cb : String → Callback} {x : Sides} {p : PollSetting} (ht : h.Total) (hcb : OwnFutures cb)
    (hx : Awaited lib h ven cb x) (hp : p.Fine lib ven x) {e : Event} (he : e ∈ x.vtn.1.queue ven) (hr : e.status = .cancelled ∨ ∀ i, ¬ e.overAt (p.vtnClock i)) :
    ∃ v, Voiced h (p.round h ven x).calls e.id v ∧ heardBy (cb e.id) ven e.id (p.round h ven x).vtn.2 = [(cb e.id).call ven e.id (optText v)] :=
  (any_told ht hcb (raced_inStep ht (awaited_raced hx)) hp (awaited_core ht hcb hx).1 (awaited_core ht hcb hx).2).2 e he hr

/-! ### A concrete case -/

/-- The first event has the future 3, all others are told to the function 7. -/
def futureFirst (id : String) : Callback := if id = "event1" then .future 3 else .func 7 true

theorem futureFirst_own : OwnFutures futureFirst := by
  intro i j f h1 h2
  have key : ∀ i, futureFirst i = .future f → i = "event1" := by
    intro i h
    unfold futureFirst at h
    split at h
    · assumption
    · cases h
  rw [key i h1, key j h2]

def promisedArgs : AddArgs := { firstArgs with callback := some (.future 3) }

def promisedStart : Sides := fresh.added promisedArgs

theorem promised_awaited : Awaited plainLib easyHandlers "ven1" futureFirst promisedStart := by
  have g := eventArgs_good "event1" 3600000000 "always" (ordinary_of (by decide +kernel)) (by constructor <;> decide +kernel)
  refine .change (x := fresh) (.start _ _ (fun id => heardBy_nil ..)) (.add .same (a := promisedArgs) (id := "event1") (by rfl) rfl
    ⟨g.id, g.context, g.signal, g.now, g.starts, g.durations, g.total, g.payloads, g.numbers, g.levels, g.targets, g.plain⟩ rfl ?_ ?_ rfl rfl)
  · intro e he
    rw [show fresh.vtn.1.queue "ven1" = [] from rfl] at he
    simp at he
  · intro c hc
    rw [show fresh.calls = [] from rfl] at hc
    simp at hc

theorem queue_promised : promisedStart.vtn.1.queue "ven1" = [event1] := by rfl

/-- An event is added with a future, and the VEN polls: the future has one result, the answer of the VEN's handler. -/
example : let y := (pollAt 0).round easyHandlers "ven1" promisedStart
    ∃ v, Voiced easyHandlers y.calls "event1" v ∧ heardBy (.future 3) "ven1" "event1" y.vtn.2 = [.resolved 3 (optText v)] := by
  refine c110_any_told_partial easy_total futureFirst_own promised_awaited ?_ (e := event1) (by rw [queue_promised]; simp)
    (.inr (fun i h => absurd h.2 (by change ¬ ((3600000000 : Int) + 1800000000 ≤ 0); decide)))
  refine pollAt_fine datable0 rfl ?_ ?_ <;> rw [queue_promised] <;> intro e he <;> rw [List.mem_singleton.mp he]
  · rfl
  · intro h; cases h

end Openleadr
