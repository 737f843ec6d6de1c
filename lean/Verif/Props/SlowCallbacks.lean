import Verif.Props.SlowHistory
import Verif.Props.Placeholders
/-!
C110: what the callbacks of the VTN are told over histories in which events are added and cancelled while the VEN decides.
-/
namespace Openleadr

/-! ### What the handlers said -/

/-- What a handler answered in one of the calls for this event. -/
def Voiced (h : VenHandlers) (calls : List VenCall) (id : String) (v : Value) : Prop :=
  ∃ before c after, calls = before ++ c :: after ∧ c.event.id = id ∧
    match c with
    | .onEvent e => h.onEvent before e = .ok v
    | .onUpdate e => ∃ responded, h.onUpdate before responded e = .ok v

theorem voiced_append {h : VenHandlers} {calls : List VenCall} {id : String} {v : Value} (more : List VenCall) (hv : Voiced h calls id v) : Voiced h (calls ++ more) id v := by
  obtain ⟨before, c, after, rfl, h1, h2⟩ := hv
  exact ⟨before, c, after ++ more, by simp, h1, h2⟩

theorem voiced_called {h : VenHandlers} {calls : List VenCall} {id : String} {v : Value} (hv : Voiced h calls id v) : ∃ c ∈ calls, c.event.id = id := by
  obtain ⟨before, c, after, rfl, h1, -⟩ := hv
  exact ⟨c, by simp, h1⟩

/-- All that is remembered was said. -/
def AllVoiced (h : VenHandlers) (calls : List VenCall) (s : VenState) : Prop := ∀ p ∈ s.responded, Voiced h calls p.1 p.2

theorem allVoiced_append {h : VenHandlers} {calls : List VenCall} {s : VenState} (more : List VenCall) (ha : AllVoiced h calls s) : AllVoiced h (calls ++ more) s :=
  fun p hp => voiced_append more (ha p hp)

theorem allVoiced_remember {h : VenHandlers} {calls : List VenCall} {s : VenState} (ha : AllVoiced h calls s) {e : Event} {v : Value} (hv : Voiced h calls e.id v) :
    AllVoiced h calls { s with responded := remember s.responded e v } := by
  intro p hp
  simp only [remember] at hp
  split at hp
  · exact ha p (mem_of_mem_erase hp)
  · rcases mem_dict_set hp with rfl | hp
    · exact hv
    · exact ha p hp

theorem voiced_decideEvent (h : VenHandlers) (calls : List VenCall) (s : VenState) (e : Event) (ha : AllVoiced h calls s) :
    AllVoiced h (decideEvent h calls s e).2.1 (decideEvent h calls s e).1 ∧
    ∀ v, (decideEvent h calls s e).2.2 = .ok v → Voiced h (decideEvent h calls s e).2.1 e.id v := by
  unfold decideEvent
  split
  · split
    · split
      · rename_i v hv
        exact ⟨ha, fun w hw => by cases hw; exact ha _ (Dict.mem_of_get? _ _ _ hv)⟩
      · exact ⟨ha, fun w hw => by cases hw⟩
    · exact ⟨allVoiced_append _ ha, fun w hw => ⟨calls, .onUpdate e, [], rfl, rfl, _, hw⟩⟩
  · exact ⟨allVoiced_append _ ha, fun w hw => ⟨calls, .onEvent e, [], rfl, rfl, hw⟩⟩

theorem voiced_decideAll (h : VenHandlers) (es : List Event) (calls : List VenCall) (s : VenState) (ha : AllVoiced h calls s) :
    AllVoiced h (decideAll h calls s es).2.1 (decideAll h calls s es).1 ∧
    ∀ vs, (decideAll h calls s es).2.2 = .ok vs → ∀ q ∈ es.zip vs, Voiced h (decideAll h calls s es).2.1 q.1.id q.2 := by
  induction es generalizing calls s with
  | nil => exact ⟨ha, fun vs _ q hq => by simp at hq⟩
  | cons e es ih =>
    have h1 := voiced_decideEvent h calls s e ha
    simp only [decideAll]
    generalize decideEvent h calls s e = y at h1
    obtain ⟨s1, c1, r1⟩ := y
    cases r1 with
    | error err => exact ⟨h1.1, fun vs hvs => by cases hvs⟩
    | ok v =>
      have hv := h1.2 v rfl
      simp only at hv h1 ⊢
      have h2 := ih c1 { s1 with responded := remember s1.responded e v } (allVoiced_remember h1.1 hv)
      have h3 := decideAll_calls h es c1 { s1 with responded := remember s1.responded e v }
      generalize decideAll h c1 { s1 with responded := remember s1.responded e v } es = z at h2 h3
      obtain ⟨s2, c2, r2⟩ := z
      cases r2 with
      | error err => exact ⟨h2.1, fun vs hvs => by cases hvs⟩
      | ok ws =>
        refine ⟨h2.1, fun vs hvs q hq => ?_⟩
        cases hvs
        rw [List.zip_cons_cons, List.mem_cons] at hq
        rcases hq with rfl | hq
        · obtain ⟨more, hm⟩ := h3
          simp only at hm ⊢
          rw [hm]
          exact voiced_append more hv
        · exact h2.2 ws rfl q hq

/-! ### Answers, some of which are refused -/

theorem fireCallback_some (env : Env) (hq : ∀ e, env.raises e = none) (s t : Server) (ven : String) (r : EventResponse) (hc : t.callbacks = s.callbacks)
    (hd : t.doneFutures = s.doneFutures) (hn : (Dict.keys s.callbacks).Nodup) :
    (Dict.keys (fireCallback env t ven r).1.callbacks).Nodup ∧ Dict.get? (fireCallback env t ven r).1.callbacks r.eventId = none ∧
    (∀ id, id ≠ r.eventId → Dict.get? (fireCallback env t ven r).1.callbacks id = Dict.get? s.callbacks id) ∧
    (fireCallback env t ven r).2.1 = told s ven r.eventId r.optType := by
  simp only [fireCallback, told, hc]
  cases hg : Dict.get? s.callbacks r.eventId with
  | none => exact ⟨by rw [hc]; exact hn, by rw [hc]; exact hg, fun id _ => by rw [hc], rfl⟩
  | some cb =>
    have h1 := keys_erase_nodup (k := r.eventId) hn
    have h2 := Dict.get?_erase_self s.callbacks r.eventId hn
    have h3 : ∀ id, id ≠ r.eventId → Dict.get? (Dict.erase s.callbacks r.eventId) id = Dict.get? s.callbacks id := fun id hi => Dict.get?_erase_other _ _ _ hi
    cases cb with
    | func c b => exact ⟨h1, h2, h3, rfl⟩
    | future f =>
      simp only [hd]
      split <;> exact ⟨h1, h2, h3, rfl⟩

/-- One answer: it is refused, or the callback is told. -/
theorem respondOne_some (env : Env) (hq : ∀ e, env.raises e = none) (s : Server) (ven : String) (r : EventResponse) (hn : (Dict.keys s.callbacks).Nodup) :
    (Dict.keys (respondOne env s ven r).1.callbacks).Nodup ∧ (∀ e ∈ (respondOne env s ven r).1.queue ven, e ∈ s.queue ven) ∧
    (((respondOne env s ven r).1.callbacks = s.callbacks ∧ (respondOne env s ven r).2.1 = []) ∨
      (∃ e ∈ s.queue ven, e.id = r.eventId) ∧ Dict.get? (respondOne env s ven r).1.callbacks r.eventId = none ∧
      (∀ id, id ≠ r.eventId → Dict.get? (respondOne env s ven r).1.callbacks id = Dict.get? s.callbacks id) ∧
      (respondOne env s ven r).2.1 = told s ven r.eventId r.optType) := by
  unfold respondOne
  cases hg : Dict.get? s.events ven with
  | none => exact ⟨hn, fun e he => he, .inl ⟨rfl, rfl⟩⟩
  | some q =>
    have hqq : s.queue ven = q := by simp [Server.queue, hg]
    simp only
    cases hf : q.find? (hasIdAndNumber r) with
    | none =>
      simp only
      split <;> exact ⟨hn, fun e he => he, .inl ⟨rfl, rfl⟩⟩
    | some e =>
      have hin : ∃ e ∈ s.queue ven, e.id = r.eventId := by
        have h2 := List.find?_some hf
        simp only [hasIdAndNumber, Bool.and_eq_true, beq_iff_eq] at h2
        exact ⟨e, by rw [hqq]; exact List.mem_of_find?_eq_some hf, h2.1⟩
      simp only
      split
      · obtain ⟨h1, h2, h3, h4⟩ := fireCallback_some env hq s { s with events := Dict.set s.events ven (eraseFirst (hasId r.eventId) q) } ven r rfl rfl hn
        refine ⟨h1, fun a ha => ?_, .inr ⟨hin, h2, h3, h4⟩⟩
        rw [Server.queue, (fireCallback_frame ..).1] at ha
        simp only [Dict.get?_set_self, Option.getD_some] at ha
        rw [hqq]
        exact (eraseFirst_sublist _ _).subset ha
      · obtain ⟨h1, h2, h3, h4⟩ := fireCallback_some env hq s s ven r rfl rfl hn
        refine ⟨h1, fun a ha => ?_, .inr ⟨hin, h2, h3, h4⟩⟩
        rw [Server.queue, (fireCallback_frame ..).1] at ha
        exact ha

theorem toldAbout_other (s : Server) (ven : String) {id i : String} (opt : String) (h : id ≠ i) : toldAbout ven id (told s ven i opt) = [] := by
  simp only [toldAbout, told]
  cases Dict.get? s.callbacks i with
  | none => rfl
  | some cb =>
    cases cb with
    | func c b => simp [h.symm]
    | future f => simp only; split <;> rfl

/-- All answers: a callback is as before and was not told anything, or is gone and was told one of the answers. -/
theorem respondAll_some (env : Env) (hq : ∀ e, env.raises e = none) (ven : String) (rs : List EventResponse) (s : Server) (hn : (Dict.keys s.callbacks).Nodup) :
    (Dict.keys (respondAll env s ven rs).1.callbacks).Nodup ∧ (∀ e ∈ (respondAll env s ven rs).1.queue ven, e ∈ s.queue ven) ∧
    ∀ id, (Dict.get? (respondAll env s ven rs).1.callbacks id = Dict.get? s.callbacks id ∧ toldAbout ven id (respondAll env s ven rs).2.1 = []) ∨
      ∃ r ∈ rs, r.eventId = id ∧ (∃ e ∈ s.queue ven, e.id = id) ∧ Dict.get? (respondAll env s ven rs).1.callbacks id = none ∧
        toldAbout ven id (respondAll env s ven rs).2.1 = toldAbout ven id (told s ven id r.optType) := by
  induction rs generalizing s with
  | nil => exact ⟨hn, fun e he => he, fun id => .inl ⟨rfl, rfl⟩⟩
  | cons r rs ih =>
    obtain ⟨h1, h2, h3⟩ := respondOne_some env hq s ven r hn
    simp only [respondAll]
    generalize respondOne env s ven r = y at h1 h2 h3
    obtain ⟨s', eff, o⟩ := y
    simp only at h1 h2 h3
    cases o with
    | some err =>
      refine ⟨h1, h2, fun id => ?_⟩
      rcases h3 with ⟨a, b⟩ | ⟨a, b, c, d⟩
      · exact .inl ⟨by simp only [a], by simp only [b]; rfl⟩
      · by_cases hi : id = r.eventId
        · subst hi
          exact .inr ⟨r, by simp, rfl, a, b, by simp only [d]⟩
        · exact .inl ⟨c id hi, by simp only [d]; exact toldAbout_other s ven _ hi⟩
    | none =>
      obtain ⟨i1, i2, i3⟩ := ih s' h1
      refine ⟨i1, fun e he => h2 e (i2 e he), fun id => ?_⟩
      simp only
      rw [toldAbout_append]
      rcases h3 with ⟨a, b⟩ | ⟨a, b, c, d⟩
      · rw [b, show toldAbout ven id [] = [] from rfl, List.nil_append]
        rcases i3 id with ⟨j1, j2⟩ | ⟨r', j1, j2, ⟨e, j3, j4⟩, j5, j6⟩
        · exact .inl ⟨by rw [j1, a], j2⟩
        · refine .inr ⟨r', by simp [j1], j2, ⟨e, h2 e j3, j4⟩, j5, ?_⟩
          rw [j6, toldAbout_told, toldAbout_told, a]
      · by_cases hi : id = r.eventId
        · subst hi
          have hz : toldAbout ven r.eventId (respondAll env s' ven rs).2.1 = [] ∧ Dict.get? (respondAll env s' ven rs).1.callbacks r.eventId = none := by
            rcases i3 r.eventId with ⟨j1, j2⟩ | ⟨r', -, -, -, j5, j6⟩
            · exact ⟨j2, j1.trans b⟩
            · rw [j6, toldAbout_told, b]; exact ⟨rfl, j5⟩
          exact .inr ⟨r, by simp, rfl, a, hz.2, by rw [hz.1, d, List.append_nil]⟩
        · rw [d, toldAbout_other s ven _ hi, List.nil_append]
          rcases i3 id with ⟨j1, j2⟩ | ⟨r', j1, j2, ⟨e, j3, j4⟩, j5, j6⟩
          · exact .inl ⟨by rw [j1, c id hi], j2⟩
          · refine .inr ⟨r', by simp [j1], j2, ⟨e, h2 e j3, j4⟩, j5, ?_⟩
            rw [j6, toldAbout_told, toldAbout_told, c id hi]

/-! ### Histories -/

/-- As `Changed`, and each event is added with a function as callback. `cb id` is the callback of the event. -/
inductive Announced (lib : Lib) (ven : String) (cb : String → Nat) (calls : List VenCall) (s : Server) : Server → Prop
  | same : Announced lib ven cb calls s s
  | add {s' s'' : Server} {a : AddArgs} {id : String} {b : Bool} : Announced lib ven cb calls s s' → addEvent s' a = (s'', .ok (some id)) → a.ven = ven → a.Good lib →
      a.responseRequired = "always" → (∀ e ∈ s'.queue ven, e.id ≠ a.eventId) → (∀ c ∈ calls, c.event.id ≠ a.eventId) →
      a.callback = some (.func (cb a.eventId) b) → Announced lib ven cb calls s s''
  | cancel {s' : Server} (id : String) : Announced lib ven cb calls s s' → Announced lib ven cb calls s (cancelEvent s' ven id)

/-- The histories of a VEN and its VTN, as for `Raced`, in which each event is added with a function as callback, and nobody else takes this callback. -/
inductive Pursued (lib : Lib) (h : VenHandlers) (ven : String) (cb : String → Nat) : Sides → Prop
  /-- Both sides are started. -/
  | start (cache : NonceCache) (log : List Effect) : (∀ id, toldAbout ven id log = []) → Pursued lib h ven cb ⟨cache, (Server.init, log), ⟨[], []⟩, []⟩
  /-- Events are added and cancelled. -/
  | change {x : Sides} {s' : Server} : Pursued lib h ven cb x → Announced lib ven cb x.calls x.vtn.1 s' → Pursued lib h ven cb { x with vtn := (s', x.vtn.2) }
  /-- Something that does not concern this VEN: the events, polls and answers of others. -/
  | other {x : Sides} {cache : NonceCache} {s' : Server} {new : List Effect} : Pursued lib h ven cb x → s'.queue ven = x.vtn.1.queue ven →
      s'.flag ven = x.vtn.1.flag ven → s'.external = x.vtn.1.external →
      (∀ e ∈ x.vtn.1.queue ven, Dict.get? s'.callbacks e.id = Dict.get? x.vtn.1.callbacks e.id) → Unshared s' → (Dict.keys s'.callbacks).Nodup →
      (∀ id, toldAbout ven id new = []) → Pursued lib h ven cb ⟨cache, (s', x.vtn.2 ++ new), x.ven, x.calls⟩
  /-- The VEN logs the statuses of its events (client.py:1237-1249). -/
  | log {x : Sides} (clock : Nat → Int) : Pursued lib h ven cb x →
      Pursued lib h ven cb { x with ven := { x.ven with received := statusLog clock 0 x.ven.received } }
  /-- The VEN cleans up (client.py:1251-1260), and forgets no event that the VTN still has. -/
  | forget {x : Sides} (clock : Nat → Int) : Pursued lib h ven cb x →
      (∀ e ∈ x.vtn.1.queue ven, ∀ r ∈ x.ven.received, r.id = e.id → r ∈ cleanup clock x.ven.received) →
      Pursued lib h ven cb { x with ven := { x.ven with received := cleanup clock x.ven.received } }
  /-- The VEN polls, and decides at once. -/
  | poll {x : Sides} (p : PollSetting) : Pursued lib h ven cb x → p.Fine lib ven x → Pursued lib h ven cb (p.round h ven x)
  /-- The VEN polls, and events are added and cancelled while it decides. -/
  | slow {x : Sides} (p : PollSetting) (f : Server → Server) : Pursued lib h ven cb x → p.Fine lib ven x → (∀ e ∈ x.vtn.1.queue ven, e.status ≠ .cancelled) →
      Announced lib ven cb (p.start h ven x).calls (p.start h ven x).vtn.1 (f (p.start h ven x).vtn.1) → Pursued lib h ven cb (p.slow h ven f x)

theorem announced_changed {lib : Lib} {ven : String} {cb : String → Nat} {calls : List VenCall} {s s' : Server} (ha : Announced lib ven cb calls s s') :
    Changed lib ven calls s s' := by
  induction ha with
  | same => exact .same
  | add _ h1 h2 h3 h4 h5 h6 _ ih => exact .add ih h1 h2 h3 h4 h5 h6
  | cancel id _ ih => exact .cancel id ih

theorem pursued_raced {lib : Lib} {h : VenHandlers} {ven : String} {cb : String → Nat} {x : Sides} (hx : Pursued lib h ven cb x) : Raced lib h ven x := by
  induction hx with
  | start cache log _ => exact .start cache log
  | change _ hc ih => exact .change ih (announced_changed hc)
  | other _ h1 h2 h3 _ _ _ _ ih => exact .other ih h1 h2 h3
  | log clock _ ih => exact .log clock ih
  | forget clock _ hf ih => exact .forget clock ih hf
  | poll p _ hp ih => exact .poll p ih hp
  | slow p f _ hp hl hc ih => exact .slow p f ih hp hl (announced_changed hc)

theorem changed_flag {lib : Lib} {ven : String} {calls : List VenCall} {s s' : Server} (hc : Changed lib ven calls s s') : s' = s ∨ s'.flag ven = true := by
  induction hc with
  | same => exact .inl rfl
  | add _ h1 h2 _ _ _ _ _ =>
    subst h2
    obtain ⟨-, -, -, p, -, hf, -⟩ := added_state h1
    exact .inr hf
  | @cancel s1 id _ ih =>
    rcases cancelEvent_cases s1 ven id with ⟨h, -⟩ | ⟨-, h⟩
    · rw [h]; exact ih
    · exact .inr (by rw [h]; simp [Server.flag, Dict.get?_set_self])

theorem announced_internal {lib : Lib} {ven : String} {cb : String → Nat} {calls : List VenCall} {s s' : Server} (ha : Announced lib ven cb calls s s')
    (hs : s.external = false) : s'.external = false := by
  induction ha with
  | same => exact hs
  | add _ h1 _ _ _ _ _ _ _ => exact (added_state h1).2.1
  | @cancel s3 id _ ih =>
    rcases cancelEvent_cases s3 ven id with ⟨h, -⟩ | ⟨-, h⟩
    · rw [h]; exact ih
    · rw [h]; exact ih

/-! ### The invariant -/

/-- The callback of an event waits and was not told anything, or is gone and was told once what a handler of the VEN said of the event. -/
structure Core (h : VenHandlers) (ven : String) (cb : String → Nat) (x : Sides) : Prop where
  nodup : (Dict.keys x.vtn.1.callbacks).Nodup
  unshared : Unshared x.vtn.1
  said : AllVoiced h x.calls x.ven
  pending : ∀ e ∈ x.vtn.1.queue ven,
    ((∃ b, Dict.get? x.vtn.1.callbacks e.id = some (.func (cb e.id) b)) ∧ toldAbout ven e.id x.vtn.2 = []) ∨
    (Dict.get? x.vtn.1.callbacks e.id = none ∧ ∃ v, Voiced h x.calls e.id v ∧ toldAbout ven e.id x.vtn.2 = [.responded (cb e.id) ven e.id (optText v)])
  once : ∀ id, toldAbout ven id x.vtn.2 = [] ∨ ∃ v, Voiced h x.calls id v ∧ toldAbout ven id x.vtn.2 = [.responded (cb id) ven id (optText v)]

theorem core_add {h : VenHandlers} {cb : String → Nat} {x : Sides} {a : AddArgs} {s' : Server} {id : String} {b : Bool}
    (hx : Core h a.ven cb x) (hadd : addEvent x.vtn.1 a = (s', .ok (some id))) (hc : ∀ c ∈ x.calls, c.event.id ≠ a.eventId)
    (hq : ∀ e ∈ x.vtn.1.queue a.ven, e.id ≠ a.eventId) (hcb : a.callback = some (.func (cb a.eventId) b)) : Core h a.ven cb { x with vtn := (s', x.vtn.2) } := by
  obtain ⟨rfl, hint, -, p, hp, hflag, hqueue, hcs, -⟩ := added_state hadd
  rw [hcb] at hcs
  have hcs : s'.callbacks = Dict.set x.vtn.1.callbacks a.eventId (.func (cb a.eventId) b) := hcs
  have hid : (addedEvent a p).id = a.eventId := rfl
  have hm : ∀ e, e ∈ s'.queue a.ven ↔ e ∈ x.vtn.1.queue a.ven ∨ e = addedEvent a p := by intro e; rw [hqueue]; simp
  have hsame : ∀ i, i ≠ a.eventId → Dict.get? s'.callbacks i = Dict.get? x.vtn.1.callbacks i := fun i hi => by rw [hcs, Dict.get?_set_other _ _ _ _ hi]
  have hself : Dict.get? s'.callbacks a.eventId = some (.func (cb a.eventId) b) := by rw [hcs, Dict.get?_set_self]
  have hsilent : toldAbout a.ven a.eventId x.vtn.2 = [] := by
    rcases hx.once a.eventId with h | ⟨v, hv, -⟩
    · exact h
    · obtain ⟨c, h1, h2⟩ := voiced_called hv
      exact absurd h2 (hc c h1)
  refine ⟨?_, ?_, hx.said, ?_, hx.once⟩
  · show (Dict.keys s'.callbacks).Nodup
    rw [hcs]
    exact Dict.nodup_keys_set _ _ _ hx.nodup
  · intro i j f h1 h2
    by_cases hi' : i = a.eventId
    · subst hi'; rw [hself] at h1; cases h1
    · by_cases hj : j = a.eventId
      · subst hj; rw [hself] at h2; cases h2
      · rw [hsame _ hi'] at h1
        rw [hsame _ hj] at h2
        exact hx.unshared i j f h1 h2
  · intro e he
    rcases (hm e).mp he with he | rfl
    · have := hx.pending e he
      rw [← hsame _ (hq e he)] at this
      exact this
    · rw [hid]
      exact .inl ⟨⟨b, hself⟩, hsilent⟩

theorem core_cancel {h : VenHandlers} {ven : String} {cb : String → Nat} {x : Sides} (id : String) (hx : Core h ven cb x) :
    Core h ven cb { x with vtn := (cancelEvent x.vtn.1 ven id, x.vtn.2) } := by
  rcases cancelEvent_cases x.vtn.1 ven id with ⟨h, -⟩ | ⟨-, h⟩
  · rw [h]; exact hx
  · have hqueue : (cancelEvent x.vtn.1 ven id).queue ven = updateFirst (hasId id) cancelled (x.vtn.1.queue ven) := by
      rw [h]; simp [Server.queue, Dict.get?_set_self]
    have hcs : (cancelEvent x.vtn.1 ven id).callbacks = x.vtn.1.callbacks := by rw [h]
    have hm : ∀ e ∈ (cancelEvent x.vtn.1 ven id).queue ven, ∃ a ∈ x.vtn.1.queue ven, a.id = e.id := by
      intro e he
      rw [hqueue] at he
      rcases updated_from he with h | ⟨a, h1, -, h2⟩
      · exact ⟨e, h, rfl⟩
      · exact ⟨a, h1, by rw [h2]; rfl⟩
    refine ⟨?_, ?_, hx.said, ?_, hx.once⟩
    · show (Dict.keys (cancelEvent x.vtn.1 ven id).callbacks).Nodup
      rw [hcs]; exact hx.nodup
    · intro i j f
      show Dict.get? (cancelEvent x.vtn.1 ven id).callbacks i = _ → Dict.get? (cancelEvent x.vtn.1 ven id).callbacks j = _ → _
      rw [hcs]; exact hx.unshared i j f
    · intro e he
      obtain ⟨a, ha, hae⟩ := hm e he
      have := hx.pending a ha
      rw [hae, ← hcs] at this
      exact this

theorem core_announced {lib : Lib} {h : VenHandlers} {ven : String} {cb : String → Nat} {x : Sides} {s' : Server} (hx : Core h ven cb x)
    (ha : Announced lib ven cb x.calls x.vtn.1 s') : Core h ven cb { x with vtn := (s', x.vtn.2) } := by
  induction ha with
  | same => exact hx
  | @add s1 s2 a id b _ h1 h2 _ _ h5 h6 h7 ih =>
    subst h2
    exact core_add (x := ⟨x.cache, (s1, x.vtn.2), x.ven, x.calls⟩) ih h1 h6 h5 h7
  | @cancel s1 id _ ih => exact core_cancel (x := ⟨x.cache, (s1, x.vtn.2), x.ven, x.calls⟩) id ih

/-- Handing out the events, and asking the handlers. -/
theorem core_handed {p : PollSetting} {h : VenHandlers} {ven : String} {cb : String → Nat} {x : Sides} (hx : Core h ven cb x) {s1 : Server} {es : List Event}
    (htake : takeEvents p.vtnClock x.vtn.1 ven = (s1, some es)) {s' : VenState} {calls : List VenCall} {vs : List Value}
    (hda : decideAll h x.calls x.ven (es.map (Event.arrived p.k.lib p.k.serverNow)) = (s', calls, .ok vs)) {effects : List Effect}
    (hdel : ∀ f ∈ effects, ∃ n, f = .delivered n) :
    Core h ven cb ⟨x.cache, ({ s1 with updated := Dict.set s1.updated ven false }, x.vtn.2 ++ effects), s', calls⟩ := by
  have hcb : s1.callbacks = x.vtn.1.callbacks := by
    have := (takeEvents_frame p.vtnClock x.vtn.1 ven).2.2.1
    rw [htake] at this
    exact this
  obtain ⟨more, rfl⟩ := decideAll_extends hda
  have hlog : ∀ id, toldAbout ven id (x.vtn.2 ++ effects) = toldAbout ven id x.vtn.2 := fun id => by rw [toldAbout_append, toldAbout_delivered ven id hdel, List.append_nil]
  refine ⟨?_, ?_, ?_, ?_, ?_⟩
  · show (Dict.keys s1.callbacks).Nodup
    rw [hcb]; exact hx.nodup
  · intro i j f
    show Dict.get? s1.callbacks i = _ → Dict.get? s1.callbacks j = _ → _
    rw [hcb]; exact hx.unshared i j f
  · have := (voiced_decideAll h (es.map (Event.arrived p.k.lib p.k.serverNow)) x.calls x.ven hx.said).1
    rw [hda] at this
    exact this
  · intro e he
    have he : e ∈ s1.queue ven := he
    obtain ⟨a, ha, j, rfl⟩ := handed_from htake (kept_handed htake he).1
    have := hx.pending a ha
    simp only [(refresh_members ..).2.2.1, hlog, hcb]
    rcases this with h1 | ⟨h1, v, h2, h3⟩
    · exact .inl h1
    · exact .inr ⟨h1, v, voiced_append more h2, h3⟩
  · intro id
    simp only [hlog]
    rcases hx.once id with h1 | ⟨v, h1, h2⟩
    · exact .inl h1
    · exact .inr ⟨v, voiced_append more h1, h2⟩

/-- The answers arrive. -/
theorem core_respond {h : VenHandlers} {ven : String} {cb : String → Nat} {x : Sides} (env : Env) (hq : ∀ e, env.raises e = none) (hx : Core h ven cb x)
    {rs : List EventResponse} (hrs : ∀ r ∈ rs, ∃ v, Voiced h x.calls r.eventId v ∧ r.optType = optText v) :
    Core h ven cb { x with vtn := ((respondAll env x.vtn.1 ven rs).1, x.vtn.2 ++ (respondAll env x.vtn.1 ven rs).2.1) } := by
  obtain ⟨h1, h2, h3⟩ := respondAll_some env hq ven rs x.vtn.1 hx.nodup
  have hev : ∀ e ∈ x.vtn.1.queue ven,
      ((∃ b, Dict.get? (respondAll env x.vtn.1 ven rs).1.callbacks e.id = some (.func (cb e.id) b)) ∧ toldAbout ven e.id (x.vtn.2 ++ (respondAll env x.vtn.1 ven rs).2.1) = []) ∨
      (Dict.get? (respondAll env x.vtn.1 ven rs).1.callbacks e.id = none ∧
        ∃ v, Voiced h x.calls e.id v ∧ toldAbout ven e.id (x.vtn.2 ++ (respondAll env x.vtn.1 ven rs).2.1) = [.responded (cb e.id) ven e.id (optText v)]) := by
    intro e he
    rw [toldAbout_append]
    rcases h3 e.id with ⟨a1, a2⟩ | ⟨r, a1, a2, -, a4, a5⟩
    · rw [a1, a2, List.append_nil]
      exact hx.pending e he
    · rw [a4, a5, toldAbout_told]
      refine .inr ⟨rfl, ?_⟩
      rcases hx.pending e he with ⟨⟨b, b1⟩, b2⟩ | ⟨b1, v, b2, b3⟩
      · obtain ⟨v, c1, c2⟩ := hrs r a1
        refine ⟨v, by rw [← a2]; exact c1, ?_⟩
        rw [b1, b2, c2]
        simp
      · exact ⟨v, b2, by rw [b1, b3]; rfl⟩
  refine ⟨h1, ?_, hx.said, fun e he => hev e (h2 e he), fun id => ?_⟩
  · intro i j f g1 g2
    have back : ∀ i, Dict.get? (respondAll env x.vtn.1 ven rs).1.callbacks i = some (.future f) → Dict.get? x.vtn.1.callbacks i = some (.future f) := by
      intro i g
      rcases h3 i with ⟨a1, -⟩ | ⟨r, -, -, -, a4, -⟩
      · rwa [a1] at g
      · rw [a4] at g; cases g
    exact hx.unshared i j f (back i g1) (back j g2)
  · show toldAbout ven id (x.vtn.2 ++ (respondAll env x.vtn.1 ven rs).2.1) = [] ∨ _
    rcases h3 id with ⟨-, a2⟩ | ⟨-, -, -, ⟨e, he, rfl⟩, -⟩
    · rw [toldAbout_append, a2, List.append_nil]
      exact hx.once id
    · rcases hev e he with h | h
      · exact .inl h.2
      · exact .inr h.2

theorem start_empty {p : PollSetting} {lib : Lib} {h : VenHandlers} {ven : String} {x : Sides} (hx : Ready lib ven x) (hp : p.Fine lib ven x)
    (hflag : x.vtn.1.flag ven = true) {s1 : Server} (htake : takeEvents p.vtnClock x.vtn.1 ven = (s1, some [])) :
    pollStart p.k p.c p.env h p.vtnClock p.venClock p.secure p.peer (.str ven) x =
      (⟨x.cache, ({ s1 with updated := Dict.set s1.updated ven false }, x.vtn.2 ++ (deliverAll p.env s1.delivery []).1), x.ven, x.calls⟩, none) := by
  obtain ⟨rfl, con, hval, hacc, hlow, hq, hclock, hagree, hlive⟩ := hp
  have hdel : deliverAll p.env s1.delivery [] = ((deliverAll p.env s1.delivery []).1, none) := Prod.ext rfl (deliverAll_quiet _ hq _ _)
  have hpoll := poll_distributes (log := x.vtn.2) con.sound con.venId con.vtnId con.newId con.now con.zero con.letsIn (fun txt => hval _ _ txt)
    (fun txt => hacc _ _ txt) hx.internal hflag htake hdel (by simp)
  rw [pollStart, show x.vtn = (x.vtn.1, x.vtn.2) from rfl, hpoll]
  have : readEventMessage (receivedWith (([] : List Event).map (fun e => eventP p.k.lib (e.prepared p.k.serverNow))) p.c.vtnId p.c.newId none) = none := by
    simp [readEventMessage, receivedWith, Dict.get?, Dict.get?_entry?, dicts?]
  simp only [this]

theorem core_slow {p : PollSetting} {lib : Lib} {h : VenHandlers} (ht : h.Total) {ven : String} {cb : String → Nat} {x : Sides} {f : Server → Server} (hi : InStep lib ven x)
    (hp : p.Fine lib ven x) (hx : Core h ven cb x)
    (ha : Announced lib ven cb (p.start h ven x).calls (p.start h ven x).vtn.1 (f (p.start h ven x).vtn.1)) : Core h ven cb (p.slow h ven f x) := by
  have hnone : (pollStart p.k p.c p.env h p.vtnClock p.venClock p.secure p.peer (.str ven) x).2 = none → Core h ven cb (p.start h ven x) →
      Core h ven cb (p.slow h ven f x) := by
    intro hn hc
    have hsame : p.round h ven x = p.start h ven x := by
      rw [← c110_halves]
      simp only [PollSetting.slow, hn, pollFinish, PollSetting.start]
      rfl
    rw [slow_none hn, hsame]
    exact core_announced hc ha
  cases hflag : x.vtn.1.flag ven with
  | false =>
    have hn := start_nothing (h := h) hi.ready hp hflag
    refine hnone hn ?_
    have hsame : p.round h ven x = p.start h ven x := by
      rw [← c110_halves]
      simp only [PollSetting.slow, hn, pollFinish, PollSetting.start]
      rfl
    rw [← hsame, PollSetting.round, c87_nothing_new hp.con (fun txt => hp.asked _ _ txt) (fun q txt => hp.taken _ q txt) hi.internal hflag]
    exact hx
  | true =>
    obtain ⟨es, d, k⟩ := round_heard ht hi.ready hp hflag
    obtain ⟨s1, htake⟩ := d.handed
    obtain ⟨vs, s', effects, v1, v2, -, -⟩ := k.told hx.unshared
    have hcore := core_handed hx htake v2 (deliverAll_delivered p.env s1.delivery es)
    by_cases hne : es = []
    · subst hne
      have hs := start_empty (h := h) hi.ready hp hflag htake
      refine hnone (by rw [hs]) ?_
      rw [PollSetting.start, hs]
      simp only [List.map_nil, decideAll, Prod.mk.injEq] at v2
      obtain ⟨rfl, hcalls, -⟩ := v2
      rw [← hcalls] at hcore
      exact hcore
    · obtain ⟨-, -, h2⟩ := start_done (h := h) hi.ready hp hflag htake
      have hstart := h2 hne
      have f1 : s1.external = false := by
        have := (takeEvents_frame p.vtnClock x.vtn.1 ven).1
        rw [htake] at this
        exact this.trans hi.internal
      have hres : resultsOf h x.calls x.ven ⟨.str p.c.vtnId, .str p.c.newId, es.map (Event.arrived p.k.lib p.k.serverNow)⟩ =
          (s', (p.round h ven x).calls, false, fixResults (es.map (Event.arrived p.k.lib p.k.serverNow)) vs) := by
        unfold resultsOf; simp [hp.loud, v2]
      obtain ⟨hst1, hst2⟩ := onEventMessage_state h p.venClock x.calls x.ven ⟨.str p.c.vtnId, .str p.c.newId, es.map (Event.arrived p.k.lib p.k.serverNow)⟩
      rw [hres] at hst1 hst2
      simp only at hst1 hst2
      have hent := entries_onEventMessage h p.venClock x.calls x.ven ⟨.str p.c.vtnId, .str p.c.newId, es.map (Event.arrived p.k.lib p.k.serverNow)⟩
      rw [hres] at hent
      simp only at hent
      rw [PollSetting.start, hstart, hst2] at ha
      simp only at ha
      have hmid := core_announced hcore ha
      have hext := announced_internal ha f1
      have hr1 := slow_done (h := h) (f := f) hi.ready hp hflag htake hne hext
      simp only at hr1
      rw [hr1, hst1, hst2, hent, createdEvent_state, createdEvent_effects, if_neg (by rw [hext]; simp), if_neg (by rw [hext]; simp)]
      have hvoiced := (voiced_decideAll h (es.map (Event.arrived p.k.lib p.k.serverNow)) x.calls x.ven hx.said).2 vs (by rw [v2])
      rw [v2] at hvoiced
      refine core_respond p.env hp.quiet hmid ?_
      intro r hr
      obtain ⟨r', hr', rfl⟩ := List.mem_map.mp hr
      obtain ⟨q, hq', h1, -, h3, -⟩ := responsesFor_mem _ _ _ _ _ _ hr'
      refine ⟨q.2, ?_, ?_⟩
      · have := hvoiced q hq'
        rw [h1] at this
        exact this
      · show (r'.optType.text?).getD "" = _
        rw [h3, sent, optText]
        by_cases c1 : q.2 = .str "optIn"
        · rw [c1]; decide
        · by_cases c2 : q.2 = .str "optOut"
          · rw [c2]; decide
          · rw [if_neg (by simp [c1, c2]), if_neg c1]; rfl

theorem core_poll {p : PollSetting} {lib : Lib} {h : VenHandlers} (ht : h.Total) {ven : String} {cb : String → Nat} {x : Sides} (hi : InStep lib ven x)
    (hp : p.Fine lib ven x) (hx : Core h ven cb x) : Core h ven cb (p.round h ven x) := by
  rw [← c110_halves]
  exact core_slow ht hi hp hx .same

/-- Nothing waits if the VTN has nothing to tell. -/
def Calm (ven : String) (x : Sides) : Prop := x.vtn.1.flag ven = false → ∀ e ∈ x.vtn.1.queue ven, Dict.get? x.vtn.1.callbacks e.id = none

/-- After a poll without anything in between. -/
theorem poll_told {p : PollSetting} {lib : Lib} {h : VenHandlers} (ht : h.Total) {ven : String} {cb : String → Nat} {x : Sides} (hi : InStep lib ven x)
    (hp : p.Fine lib ven x) (hx : Core h ven cb x) (hcalm : Calm ven x) :
    (∀ e ∈ (p.round h ven x).vtn.1.queue ven, Dict.get? (p.round h ven x).vtn.1.callbacks e.id = none) ∧
    ∀ e ∈ x.vtn.1.queue ven, (e.status = .cancelled ∨ ∀ i, ¬ e.overAt (p.vtnClock i)) →
      ∃ v, Voiced h (p.round h ven x).calls e.id v ∧ toldAbout ven e.id (p.round h ven x).vtn.2 = [.responded (cb e.id) ven e.id (optText v)] := by
  cases hflag : x.vtn.1.flag ven with
  | false =>
    have : p.round h ven x = x := c87_nothing_new hp.con (fun txt => hp.asked _ _ txt) (fun q txt => hp.taken _ q txt) hi.internal hflag
    rw [this]
    refine ⟨hcalm hflag, fun e he _ => ?_⟩
    rcases hx.pending e he with ⟨⟨b, hb⟩, -⟩ | h1
    · rw [hcalm hflag e he] at hb; cases hb
    · exact h1.2
  | true =>
    obtain ⟨es, d, k⟩ := round_heard ht hi.ready hp hflag
    obtain ⟨s1, htake⟩ := d.handed
    obtain ⟨hd, -⟩ := handed_distinct htake hi.distinct
    obtain ⟨t, rs, c1, c2, c3, c4, c5, c6⟩ := k.answers
    obtain ⟨vs, s', effects, v1, v2, v3, v4⟩ := k.told hx.unshared
    obtain ⟨-, r2, -⟩ := respondAll_callbacks p.env hp.quiet ven rs t c3 (by rw [c1]; exact hx.nodup) c4
    rw [← c2] at r2
    have hgood : ∀ e ∈ es, e.responseRequired = some "always" := by
      intro e he
      obtain ⟨a, ha, j, rfl⟩ := handed_from htake he
      rw [(refresh_members ..).2.2.2]
      exact (hi.good a ha).2
    refine ⟨fun e he => ?_, fun e he hr => ?_⟩
    · obtain ⟨h1, h2, -⟩ := d.left e he
      obtain ⟨r, hr, hre⟩ := c6 e h1 ⟨hgood e h1, h2⟩
      rw [← hre]
      exact r2 r hr
    · obtain ⟨j, hj⟩ := running_handed htake he hr
      have hid : (refresh (p.vtnClock j) (p.vtnClock (j + 1)) e).id = e.id := (refresh_members ..).2.2.1
      have ha : (refresh (p.vtnClock j) (p.vtnClock (j + 1)) e).answered := by
        refine ⟨hgood _ hj, ?_⟩
        rw [refresh_status]
        split
        · simp
        · rename_i hc
          exact (not_over_iff e _).mpr ((hr.resolve_left hc) j)
      generalize refresh (p.vtnClock j) (p.vtnClock (j + 1)) e = o at hj hid ha
      have hpair : ((es.zip vs).filter (fun q => decide q.1.answered)).Pairwise (fun a b => a.1.id ≠ b.1.id) := by
        refine List.Pairwise.filter _ ?_
        clear v2 v4 c5 c6 d k htake hj hgood
        induction es generalizing vs with
        | nil => simp
        | cons e es ih =>
          cases vs with
          | nil => simp
          | cons v vs =>
            rw [Distinct, List.pairwise_cons] at hd
            rw [List.zip_cons_cons, List.pairwise_cons]
            exact ⟨fun q hq => hd.1 q.1 (List.of_mem_zip (show (q.1, q.2) ∈ _ from hq)).1, ih hd.2 vs (by simpa using v1)⟩
      obtain ⟨i, hil, hei⟩ := List.getElem_of_mem hj
      have hiv : i < vs.length := by rw [v1]; exact hil
      have hz : (o, vs[i]) ∈ es.zip vs := by
        rw [← hei]
        exact List.mem_iff_getElem.mpr ⟨i, by simp; omega, by simp⟩
      have hz' : (o.arrived p.k.lib p.k.serverNow, vs[i]) ∈ (es.map (Event.arrived p.k.lib p.k.serverNow)).zip vs := by
        rw [List.zip_map_left, List.mem_map]
        exact ⟨(o, vs[i]), hz, rfl⟩
      have hvoiced := (voiced_decideAll h (es.map (Event.arrived p.k.lib p.k.serverNow)) x.calls x.ven hx.said).2 vs (by rw [v2]) _ hz'
      rw [v2] at hvoiced
      have hl := (toldAbout_answers x.vtn.1 ven o.id _ hpair).2 (o, vs[i]) (List.mem_filter.mpr ⟨hz, decide_eq_true ha⟩) rfl
      have hlog : toldAbout ven o.id (p.round h ven x).vtn.2 = toldAbout ven o.id x.vtn.2 ++ toldAbout ven o.id (told x.vtn.1 ven o.id (optText vs[i])) := by
        rw [v4, toldAbout_append, toldAbout_append, toldAbout_delivered ven _ v3, List.append_nil, hl]
      rw [toldAbout_told, hid] at hlog
      have hvoiced : Voiced h (p.round h ven x).calls e.id vs[i] := by rw [← hid]; exact hvoiced
      rcases hx.pending e he with ⟨⟨b, b1⟩, b2⟩ | ⟨b1, v, b2, b3⟩
      · refine ⟨vs[i], hvoiced, ?_⟩
        rw [hlog, b1, b2]
        simp
      · refine ⟨v, ?_, ?_⟩
        · rw [d.calls]
          exact voiced_append _ b2
        · rw [hlog, b1, b3]
          rfl

theorem calm_slow {p : PollSetting} {lib : Lib} {h : VenHandlers} (ht : h.Total) {ven : String} {cb : String → Nat} {x : Sides} {f : Server → Server} (hi : InStep lib ven x)
    (hp : p.Fine lib ven x) (hx : Core h ven cb x) (hcalm : Calm ven x) (hlive : ∀ e ∈ x.vtn.1.queue ven, e.status ≠ .cancelled)
    (hc : Changed lib ven (p.start h ven x).calls (p.start h ven x).vtn.1 (f (p.start h ven x).vtn.1)) : Calm ven (p.slow h ven f x) := by
  intro hflag
  obtain ⟨-, -, h1, -⟩ := slow_changed ht hi hp hlive hc
  rcases changed_flag hc with h2 | h2
  · have : p.slow h ven f x = p.round h ven x := by
      rw [← c110_halves, PollSetting.slow, PollSetting.slow]
      have h3 : f (pollStart p.k p.c p.env h p.vtnClock p.venClock p.secure p.peer (.str ven) x).1.vtn.1 =
        (pollStart p.k p.c p.env h p.vtnClock p.venClock p.secure p.peer (.str ven) x).1.vtn.1 := h2
      simp only [Sides.meanwhile, h3, id_eq]
    rw [this]
    exact (poll_told ht hi hp hx hcalm).1
  · rw [h1, h2] at hflag
    cases hflag

theorem pursued_core {lib : Lib} {h : VenHandlers} {ven : String} {cb : String → Nat} {x : Sides} (ht : h.Total) (hx : Pursued lib h ven cb x) :
    Core h ven cb x ∧ Calm ven x := by
  induction hx with
  | start cache log hlog =>
    refine ⟨⟨by simp [Server.init, Dict.keys], by simp [Unshared, Server.init, Dict.get?], fun p hp => by simp at hp, ?_, fun id => .inl (hlog id)⟩, ?_⟩ <;>
      simp [Server.queue, Server.init, Dict.get?, Calm]
  | @change x s' hx ha ih =>
    refine ⟨core_announced ih.1 ha, fun hflag => ?_⟩
    rcases changed_flag (announced_changed ha) with h2 | h2
    · subst h2
      exact ih.2 hflag
    · exact absurd (h2.symm.trans hflag) (by simp)
  | @other x cache s' new _ h1 h2 h3 h4 h5 h6 h7 ih =>
    have hl : ∀ id, toldAbout ven id (x.vtn.2 ++ new) = toldAbout ven id x.vtn.2 := fun id => by rw [toldAbout_append, h7, List.append_nil]
    refine ⟨⟨h6, h5, ih.1.said, ?_, ?_⟩, ?_⟩
    · intro e he
      have he : e ∈ s'.queue ven := he
      rw [h1] at he
      simp only [hl, h4 e he]
      exact ih.1.pending e he
    · intro id
      simp only [hl]
      exact ih.1.once id
    · intro hflag e he
      have he : e ∈ s'.queue ven := he
      rw [h1] at he
      show Dict.get? s'.callbacks e.id = none
      rw [h4 e he]
      exact ih.2 (h2.symm.trans hflag) e he
  | log clock _ ih => exact ⟨⟨ih.1.nodup, ih.1.unshared, ih.1.said, ih.1.pending, ih.1.once⟩, ih.2⟩
  | forget clock _ _ ih => exact ⟨⟨ih.1.nodup, ih.1.unshared, ih.1.said, ih.1.pending, ih.1.once⟩, ih.2⟩
  | poll p hx hp ih =>
    have hi := raced_inStep ht (pursued_raced hx)
    exact ⟨core_poll ht hi hp ih.1, fun _ => (poll_told ht hi hp ih.1 ih.2).1⟩
  | slow p f hx hp hl ha ih =>
    have hi := raced_inStep ht (pursued_raced hx)
    exact ⟨core_slow ht hi hp ih.1 ha, calm_slow ht hi hp ih.1 ih.2 hl (announced_changed ha)⟩

/-! ### The theorems -/

/-- **C110** (partial: as for `c110_once_partial`, and each event is added with a function as callback that nobody else is given or takes). However events were added and
    cancelled while the VEN was deciding, the callback of an event was told at most once about it; and if it was told, it was told what a handler of the VEN answered when
    it was called for this event. -/
theorem c110_callback_partial {lib : Lib} {h : VenHandlers} {ven : String} {cb : String → Nat} {x : Sides} (ht : h.Total) (hx : Pursued lib h ven cb x) (id : String) :
    toldAbout ven id x.vtn.2 = [] ∨ ∃ v, Voiced h x.calls id v ∧ toldAbout ven id x.vtn.2 = [.responded (cb id) ven id (optText v)] :=
  (pursued_core ht hx).1.once id

/-- **C110** (partial: as for `c110_callback_partial`). After the next poll that nothing comes into, the callback of each event that the VTN had for this VEN, if it is
    cancelled or not over, was told exactly once: also of the decisions that the VTN refused before, because another event was cancelled at the time. -/
theorem c110_told_partial {p : PollSetting} {lib : Lib} {h : VenHandlers} {ven : String} {cb : String → Nat} {x : Sides} (ht : h.Total) (hx : Pursued lib h ven cb x)
    (hp : p.Fine lib ven x) {e : Event} (he : e ∈ x.vtn.1.queue ven) (hr : e.status = .cancelled ∨ ∀ i, ¬ e.overAt (p.vtnClock i)) :
    ∃ v, Voiced h (p.round h ven x).calls e.id v ∧ toldAbout ven e.id (p.round h ven x).vtn.2 = [.responded (cb e.id) ven e.id (optText v)] :=
  (poll_told ht (raced_inStep ht (pursued_raced hx)) hp (pursued_core ht hx).1 (pursued_core ht hx).2).2 e he hr

/-! ### A concrete case -/

/-- A state in which the VTN has the first event only, and has not told the VEN of it. -/
structure OnlyFirst (x : Sides) : Prop where
  pursued : Pursued plainLib easyHandlers "ven1" (fun _ => 7) x
  queue : x.vtn.1.queue "ven1" = [event1]
  flag : x.vtn.1.flag "ven1" = true
  cache : x.cache = []

theorem onlyFirst_fine {x : Sides} (hx : OnlyFirst x) : (pollAt 0).Fine plainLib "ven1" x := by
  refine pollAt_fine datable0 hx.cache ?_ ?_ <;> rw [hx.queue] <;> intro e he <;> rw [List.mem_singleton.mp he]
  · rfl
  · intro h; cases h

theorem onlyFirst_live {x : Sides} (hx : OnlyFirst x) : ∀ e ∈ x.vtn.1.queue "ven1", e.status ≠ .cancelled := by
  rw [hx.queue]
  intro e he
  rw [List.mem_singleton.mp he]
  decide +kernel

theorem onlyFirst_polled {x : Sides} (hx : OnlyFirst x) :
    (∀ e ∈ ((pollAt 0).round easyHandlers "ven1" x).vtn.1.queue "ven1", e.Even ∧ e.id = "event1" ∧ e.activePeriod = event1.activePeriod) ∧
    (∃ e ∈ ((pollAt 0).round easyHandlers "ven1" x).vtn.1.queue "ven1", e.id = "event1") ∧ ((pollAt 0).round easyHandlers "ven1" x).cache = [] := by
  obtain ⟨es, d⟩ := round_delivers easy_total (raced_inStep easy_total (pursued_raced hx.pursued)).ready (onlyFirst_fine hx) hx.flag
  obtain ⟨s1, htake⟩ := d.handed
  obtain ⟨j, hj⟩ := running_handed htake (e := event1) (by rw [hx.queue]; simp) (.inr (fun i h => absurd h.2 (by change ¬ ((3600000000 : Int) + 1800000000 ≤ 0); decide)))
  refine ⟨fun e he => ?_, ⟨_, d.stays _ hj ?_ (.inr ?_), ?_⟩, d.place.trans hx.cache⟩
  · obtain ⟨a, ha, j, rfl⟩ := d.origin he
    rw [hx.queue, List.mem_singleton] at ha
    subst ha
    refine ⟨refresh_even even_event1, ?_, (refresh_members ..).2.1⟩
    rw [(refresh_members ..).2.2.1]; rfl
  · rw [refresh_status]; exact (by decide +kernel : (if event1.status = .cancelled then Status.cancelled else determineStatus 0 event1.activePeriod) ≠ .completed)
  · rw [refresh_status]; exact (by decide +kernel : (if event1.status = .cancelled then Status.cancelled else determineStatus 0 event1.activePeriod) ≠ .cancelled)
  · rw [(refresh_members ..).2.2.1]; rfl

/-- While the VEN decides about the event, it is cancelled; the VEN polls again. -/
theorem onlyFirst_told {x : Sides} (hx : OnlyFirst x) :
    ∃ v, Voiced easyHandlers ((pollAt 0).round easyHandlers "ven1" ((pollAt 0).slow easyHandlers "ven1" cancelFirst x)).calls "event1" v ∧
      toldAbout "ven1" "event1" ((pollAt 0).round easyHandlers "ven1" ((pollAt 0).slow easyHandlers "ven1" cancelFirst x)).vtn.2 =
        [.responded 7 "ven1" "event1" (optText v)] := by
  have hp : Pursued plainLib easyHandlers "ven1" (fun _ => 7) ((pollAt 0).slow easyHandlers "ven1" cancelFirst x) :=
    .slow (pollAt 0) cancelFirst hx.pursued (onlyFirst_fine hx) (onlyFirst_live hx) (.cancel "event1" .same)
  obtain ⟨g1, ⟨e, g2, g3⟩, g4⟩ := onlyFirst_polled hx
  obtain ⟨s, h1, h2, h3⟩ := slow_alike (h := easyHandlers) easy_total (raced_inStep easy_total (pursued_raced hx.pursued)) (onlyFirst_fine hx) (onlyFirst_live hx) cancelFirst_changed
  rw [← h1] at g1 g2
  rw [g4] at h3
  generalize (pollAt 0).slow easyHandlers "ven1" cancelFirst x = y at hp h2 h3
  rcases cancelEvent_cases s "ven1" "event1" with ⟨-, h⟩ | ⟨-, h⟩
  · exact absurd g3 (h e g2)
  · obtain ⟨a, ha, hai, hac⟩ := updated_first (id := "event1") g2 g3
    have hq : y.vtn.1.queue "ven1" = updateFirst (hasId "event1") cancelled (s.queue "ven1") := by
      rw [h2, cancelFirst, h]
      simp [Server.queue, Dict.get?_set_self]
    have hmem : ∀ e ∈ y.vtn.1.queue "ven1", e.Even ∧ e.activePeriod = event1.activePeriod := by
      intro e he
      rw [hq] at he
      rcases updated_from he with he | ⟨b, hb, -, rfl⟩
      · exact ⟨(g1 e he).1, (g1 e he).2.2⟩
      · exact ⟨(g1 b hb).1, (g1 b hb).2.2⟩
    have hfine : (pollAt 0).Fine plainLib "ven1" y := by
      refine pollAt_fine datable0 h3 (fun e he => (hmem e he).1) (fun e he _ ho => ?_)
      unfold Event.overAt at ho
      rw [(hmem e he).2] at ho
      exact absurd ho.2 (by decide +kernel)
    have := c110_told_partial easy_total hp hfine (e := cancelled a) (by rw [hq]; exact hac) (.inl rfl)
    rw [show (cancelled a).id = "event1" from hai] at this
    exact this

theorem telling_pursued : Pursued plainLib easyHandlers "ven1" (fun _ => 7) tellingStart := by
  have g := eventArgs_good "event1" 3600000000 "always" (ordinary_of (by decide +kernel)) (by constructor <;> decide +kernel)
  refine .change (x := fresh) (.start _ _ (fun _ => rfl)) (.add .same (a := tellingArgs) (id := "event1") (b := true) (by rfl) rfl
    ⟨g.id, g.context, g.signal, g.now, g.starts, g.durations, g.total, g.payloads, g.numbers, g.levels, g.targets, g.plain⟩ rfl ?_ ?_ rfl)
  · intro e he
    rw [show fresh.vtn.1.queue "ven1" = [] from rfl] at he
    simp at he
  · intro c hc
    rw [show fresh.calls = [] from rfl] at hc
    simp at hc

/-- An event is added with the callback 7, and cancelled while the VEN decides about it. The VEN polls again: the callback is called once. -/
example : ∃ v, Voiced easyHandlers ((pollAt 0).round easyHandlers "ven1" ((pollAt 0).slow easyHandlers "ven1" cancelFirst tellingStart)).calls "event1" v ∧
    toldAbout "ven1" "event1" ((pollAt 0).round easyHandlers "ven1" ((pollAt 0).slow easyHandlers "ven1" cancelFirst tellingStart)).vtn.2 =
      [.responded 7 "ven1" "event1" (optText v)] :=
  onlyFirst_told ⟨telling_pursued, queue_telling, by rfl, rfl⟩

end Openleadr
