import Verif.Props.KeepsUpCases
/-!
C107: over every history, the callback of each event is told once what the VEN decided.
-/
namespace Openleadr

/-! ### What is said -/

/-- The calls of callbacks for answers of this VEN about this event. -/
def toldAbout (ven id : String) (log : List Effect) : List Effect :=
  log.filter (fun f => match f with | .responded _ v i _ => decide (v = ven ∧ i = id) | _ => false)

/-- What the handler decided when it was called for this event as a new one. -/
def Decided (h : VenHandlers) (calls : List VenCall) (id : String) (v : Value) : Prop :=
  ∃ before e after, calls = before ++ .onEvent e :: after ∧ e.id = id ∧ h.onEvent before e = .ok v

/-- The histories of a VEN `ven` and its VTN, as for C91, in which each event is added with a function as callback, and nobody else takes this callback.
    `cb id` is the callback of the event. -/
inductive Followed (lib : Lib) (h : VenHandlers) (ven : String) (cb : String → Nat) : Sides → Prop
  /-- Both sides are started. -/
  | start (cache : NonceCache) (log : List Effect) : (∀ id, toldAbout ven id log = []) → Followed lib h ven cb ⟨cache, (Server.init, log), ⟨[], []⟩, []⟩
  /-- An event that asks for an answer is added for this VEN, with an id that was not used before, and with a callback. -/
  | add {x : Sides} {a : AddArgs} {s' : Server} {id : String} {b : Bool} : Followed lib h ven cb x → addEvent x.vtn.1 a = (s', .ok (some id)) → a.ven = ven →
      a.Good lib → a.responseRequired = "always" → (∀ e ∈ x.vtn.1.queue ven, e.id ≠ a.eventId) → (∀ c ∈ x.calls, c.event.id ≠ a.eventId) →
      a.callback = some (.func (cb a.eventId) b) → Followed lib h ven cb { x with vtn := (s', x.vtn.2) }
  /-- An event of this VEN is cancelled. -/
  | cancel {x : Sides} (id : String) : Followed lib h ven cb x → Followed lib h ven cb { x with vtn := (cancelEvent x.vtn.1 ven id, x.vtn.2) }
  /-- Something that does not concern this VEN: the events, polls and answers of others. -/
  | other {x : Sides} {cache : NonceCache} {s' : Server} {new : List Effect} : Followed lib h ven cb x → s'.queue ven = x.vtn.1.queue ven →
      s'.flag ven = x.vtn.1.flag ven → s'.external = x.vtn.1.external →
      (∀ e ∈ x.vtn.1.queue ven, Dict.get? s'.callbacks e.id = Dict.get? x.vtn.1.callbacks e.id) → Unshared s' → (Dict.keys s'.callbacks).Nodup →
      (∀ id, toldAbout ven id new = []) → Followed lib h ven cb ⟨cache, (s', x.vtn.2 ++ new), x.ven, x.calls⟩
  /-- The VEN logs the statuses of its events (client.py:1237-1249). -/
  | log {x : Sides} (clock : Nat → Int) : Followed lib h ven cb x →
      Followed lib h ven cb { x with ven := { x.ven with received := statusLog clock 0 x.ven.received } }
  /-- The VEN cleans up (client.py:1251-1260), and forgets no event that the VTN still has. -/
  | forget {x : Sides} (clock : Nat → Int) : Followed lib h ven cb x →
      (∀ e ∈ x.vtn.1.queue ven, ∀ r ∈ x.ven.received, r.id = e.id → r ∈ cleanup clock x.ven.received) →
      Followed lib h ven cb { x with ven := { x.ven with received := cleanup clock x.ven.received } }
  /-- The VEN polls. -/
  | poll {x : Sides} (p : PollSetting) : Followed lib h ven cb x → p.Fine lib ven x → Followed lib h ven cb (p.round h ven x)

theorem followed_lived {lib : Lib} {h : VenHandlers} {ven : String} {cb : String → Nat} {x : Sides} (hx : Followed lib h ven cb x) : Lived lib h ven x := by
  induction hx with
  | start cache log _ => exact .start cache log
  | add _ h1 h2 h3 h4 h5 h6 _ ih => exact .add ih h1 h2 h3 h4 h5 h6
  | cancel id _ ih => exact .cancel id ih
  | other _ h1 h2 h3 _ _ _ _ ih => exact .other ih h1 h2 h3
  | log clock _ ih => exact .log clock ih
  | forget clock _ hf ih => exact .forget clock ih hf
  | poll p _ hp ih => exact .poll p ih hp

/-! ### The invariant -/

theorem toldAbout_append (ven id : String) (a b : List Effect) : toldAbout ven id (a ++ b) = toldAbout ven id a ++ toldAbout ven id b := List.filter_append ..

theorem toldAbout_delivered (ven id : String) {l : List Effect} (h : ∀ f ∈ l, ∃ n, f = .delivered n) : toldAbout ven id l = [] := by
  rw [toldAbout, List.filter_eq_nil_iff]
  intro f hf
  obtain ⟨n, rfl⟩ := h f hf
  simp

theorem toldAbout_told (s : Server) (ven id i opt : String) : toldAbout ven id (told s ven i opt) = match Dict.get? s.callbacks i with
    | some (.func c _) => if i = id then [.responded c ven i opt] else []
    | _ => [] := by
  unfold told toldAbout
  cases Dict.get? s.callbacks i with
  | none => rfl
  | some c =>
    cases c with
    | func c b => by_cases h : i = id <;> simp [h]
    | future f => simp only; split <;> simp

/-- The part of the log for the answers of one poll that is about one event. -/
theorem toldAbout_answers (s : Server) (ven id : String) (l : List (Event × Value)) (hd : l.Pairwise (fun a b => a.1.id ≠ b.1.id)) :
    ((∀ q ∈ l, q.1.id ≠ id) → toldAbout ven id (l.flatMap (fun q => told s ven q.1.id (optText q.2))) = []) ∧
    ∀ q ∈ l, q.1.id = id → toldAbout ven id (l.flatMap (fun q => told s ven q.1.id (optText q.2))) = toldAbout ven id (told s ven id (optText q.2)) := by
  induction l with
  | nil => exact ⟨fun _ => rfl, by simp⟩
  | cons a l ih =>
    rw [List.pairwise_cons] at hd
    obtain ⟨ih1, ih2⟩ := ih hd.2
    have hne : ∀ {i opt : String}, i ≠ id → toldAbout ven id (told s ven i opt) = [] := by
      intro i opt hi
      rw [toldAbout_told]
      split
      · rw [if_neg hi]
      · rfl
    refine ⟨fun h => ?_, fun q hq hi => ?_⟩
    · rw [List.flatMap_cons, toldAbout_append, hne (h a (by simp)), ih1 (fun q hq => h q (by simp [hq]))]
      rfl
    · rw [List.flatMap_cons, toldAbout_append]
      rcases List.mem_cons.mp hq with rfl | hq
      · rw [ih1 (fun q' hq' => by rw [← hi]; exact (hd.1 q' hq').symm), hi, List.append_nil]
      · rw [hne (by rw [← hi]; exact hd.1 q hq), ih2 q hq hi]
        rfl

theorem decided_append {h : VenHandlers} {calls : List VenCall} {id : String} {v : Value} (more : List VenCall) (hd : Decided h calls id v) :
    Decided h (calls ++ more) id v := by
  obtain ⟨before, e, after, rfl, h1, h2⟩ := hd
  exact ⟨before, e, after ++ more, by simp, h1, h2⟩

theorem decideAll_extends {h : VenHandlers} {es : List Event} {calls calls' : List VenCall} {s s' : VenState} {r : Res (List Value)}
    (hda : decideAll h calls s es = (s', calls', r)) : ∃ more, calls' = calls ++ more := by
  induction es generalizing calls calls' s s' r with
  | nil => simp only [decideAll, Prod.mk.injEq] at hda; exact ⟨[], by simp [hda.2.1]⟩
  | cons e es ih =>
    have h1 : ∃ more, (decideEvent h calls s e).2.1 = calls ++ more := by
      unfold decideEvent
      split
      · split
        · split <;> exact ⟨[], by simp⟩
        · exact ⟨_, rfl⟩
      · exact ⟨_, rfl⟩
    simp only [decideAll] at hda
    generalize decideEvent h calls s e = y at h1 hda
    obtain ⟨s1, c1, r1⟩ := y
    obtain ⟨m, hm⟩ := h1
    simp only at hm
    subst hm
    cases r1 with
    | error err => simp only [Prod.mk.injEq] at hda; exact ⟨m, hda.2.1.symm⟩
    | ok v =>
      simp only at hda
      cases hrest : decideAll h (calls ++ m) { s1 with responded := remember s1.responded e v } es with
      | mk s2 y2 =>
        obtain ⟨c2, r2⟩ := y2
        rw [hrest] at hda
        obtain ⟨m2, hm2⟩ := ih hrest
        cases r2 <;> simp only [Prod.mk.injEq] at hda <;> exact ⟨m ++ m2, by rw [← hda.2.1, hm2]; simp⟩

/-- The result for an event that is new to the VEN is what the handler decided when it was called for it. -/
theorem decideAll_decided {h : VenHandlers} {es : List Event} {calls calls' : List VenCall} {s s' : VenState} {vs : List Value} (hd : Distinct es)
    (hda : decideAll h calls s es = (s', calls', .ok vs)) : ∀ q ∈ es.zip vs, s.about q.1.id = none → Decided h calls' q.1.id q.2 := by
  induction es generalizing calls s vs with
  | nil => simp
  | cons e es ih =>
    rw [Distinct, List.pairwise_cons] at hd
    have hother : ∀ e' ∈ es, ofId e'.id (decideEvent h calls s e).1.received = ofId e'.id s.received :=
      fun e' he' => decideEvent_ofId_other h calls s e e'.id (hd.1 e' he')
    have hnew : s.about e.id = none → (decideEvent h calls s e).2.1 = calls ++ [.onEvent e] ∧ (decideEvent h calls s e).2.2 = h.onEvent calls e := by
      intro hn
      have : s.received.find? (fun r => decide (r.id = e.id)) = none := by simpa [VenState.about] using hn
      unfold decideEvent
      rw [this]
      exact ⟨rfl, rfl⟩
    simp only [decideAll] at hda
    generalize decideEvent h calls s e = y at hother hnew hda
    obtain ⟨s1, c1, r1⟩ := y
    cases r1 with
    | error err => simp at hda
    | ok v =>
      simp only at hda hother hnew
      cases hrest : decideAll h c1 { s1 with responded := remember s1.responded e v } es with
      | mk s2 y2 =>
        obtain ⟨c2, r2⟩ := y2
        rw [hrest] at hda
        cases r2 with
        | error err => simp at hda
        | ok ws =>
          simp only [Prod.mk.injEq, Except.ok.injEq] at hda
          obtain ⟨rfl, rfl, rfl⟩ := hda
          intro q hq hn
          rw [List.zip_cons_cons, List.mem_cons] at hq
          rcases hq with rfl | hq
          · obtain ⟨h1, h2⟩ := hnew hn
            obtain ⟨more, hm⟩ := decideAll_extends hrest
            exact ⟨calls, e, more, by rw [hm, h1]; simp, rfl, h2.symm⟩
          · refine ih hd.2 hrest q hq ?_
            have hmem := (List.of_mem_zip (show (q.1, q.2) ∈ _ from hq)).1
            rw [about_ofId] at hn ⊢
            rw [hother q.1 hmem]
            exact hn

/-- The callbacks after the answers. -/
theorem respondAll_callbacks (env : Env) (hq : ∀ e, env.raises e = none) (ven : String) (rs : List EventResponse) (s : Server)
    (hid : rs.Pairwise (fun a b => a.eventId ≠ b.eventId)) (hn : (Dict.keys s.callbacks).Nodup)
    (hk : ∀ r ∈ rs, ∃ e ∈ s.queue ven, e.id = r.eventId ∧ e.modnum = r.modificationNumber) :
    (Dict.keys (respondAll env s ven rs).1.callbacks).Nodup ∧
    (∀ r ∈ rs, Dict.get? (respondAll env s ven rs).1.callbacks r.eventId = none) ∧
    ∀ id, (∀ r ∈ rs, r.eventId ≠ id) → Dict.get? (respondAll env s ven rs).1.callbacks id = Dict.get? s.callbacks id := by
  induction rs generalizing s with
  | nil => exact ⟨hn, by simp, fun _ _ => rfl⟩
  | cons r rs ih =>
    rw [List.pairwise_cons] at hid
    obtain ⟨h1, h2, -⟩ := respondOne_told env hq s ven r (hk r (by simp))
    have hcb : (Dict.keys (respondOne env s ven r).1.callbacks).Nodup ∧ Dict.get? (respondOne env s ven r).1.callbacks r.eventId = none := by
      obtain ⟨e, he, e1, e2⟩ := hk r (by simp)
      have fire : ∀ t : Server, t.callbacks = s.callbacks →
          (Dict.keys (fireCallback env t ven r).1.callbacks).Nodup ∧ Dict.get? (fireCallback env t ven r).1.callbacks r.eventId = none := by
        intro t ht
        simp only [fireCallback, ht]
        cases hc : Dict.get? s.callbacks r.eventId with
        | none => exact ⟨by rw [ht]; exact hn, by rw [ht]; exact hc⟩
        | some cb =>
          cases cb with
          | func c b => exact ⟨keys_erase_nodup hn, Dict.get?_erase_self _ _ hn⟩
          | future f => simp only; split <;> exact ⟨keys_erase_nodup hn, Dict.get?_erase_self _ _ hn⟩
      simp only [respondOne]
      cases hg : Dict.get? s.events ven with
      | none => simp [Server.queue, hg] at he
      | some q =>
        have hqq : s.queue ven = q := by simp [Server.queue, hg]
        simp only
        cases hf : q.find? (hasIdAndNumber r) with
        | none =>
          have := List.find?_eq_none.mp hf e (by rw [← hqq]; exact he)
          simp [hasIdAndNumber, e1, e2] at this
        | some x =>
          simp only
          split
          · exact fire _ rfl
          · exact fire _ rfl
    have hkeep : ∀ r' ∈ rs, ∃ e ∈ (respondOne env s ven r).1.queue ven, e.id = r'.eventId ∧ e.modnum = r'.modificationNumber := by
      intro r' hr'
      obtain ⟨e, he, g1, g2⟩ := hk r' (by simp [hr'])
      refine ⟨e, respondOne_mem env s ven r e he ?_, g1, g2⟩
      rintro ⟨h, _⟩
      exact hid.1 r' hr' (h.trans g1)
    obtain ⟨i1, i2, i3⟩ := ih (respondOne env s ven r).1 hid.2 hcb.1 hkeep
    have hres : (respondAll env s ven (r :: rs)).1 = (respondAll env (respondOne env s ven r).1 ven rs).1 := by
      simp only [respondAll]
      generalize respondOne env s ven r = y at h1
      obtain ⟨t, effs, o⟩ := y
      simp only [Prod.mk.injEq] at h1
      obtain ⟨-, rfl⟩ := h1
      rfl
    rw [hres]
    refine ⟨i1, fun r' hr' => ?_, fun id hno => ?_⟩
    · rcases List.mem_cons.mp hr' with rfl | hr'
      · rw [i3 _ (fun r'' hr'' => (hid.1 r'' hr'').symm)]
        exact hcb.2
      · exact i2 r' hr'
    · rw [i3 id (fun r' hr' => hno r' (by simp [hr']))]
      exact h2 id (hno r (by simp)).symm

/-- What holds at all times: the callback of an event that the VEN has not heard of waits, the callback of an event that it has heard of was called with what
    the handler decided, and no event was told of more than once. -/
structure Following (h : VenHandlers) (ven : String) (cb : String → Nat) (x : Sides) : Prop where
  nodup : (Dict.keys x.vtn.1.callbacks).Nodup
  unshared : Unshared x.vtn.1
  waiting : ∀ e ∈ x.vtn.1.queue ven, x.ven.about e.id = none →
    (∃ b, Dict.get? x.vtn.1.callbacks e.id = some (.func (cb e.id) b)) ∧ toldAbout ven e.id x.vtn.2 = []
  settled : ∀ e ∈ x.vtn.1.queue ven, x.ven.about e.id ≠ none → Dict.get? x.vtn.1.callbacks e.id = none ∧
    ∃ v, Decided h x.calls e.id v ∧ toldAbout ven e.id x.vtn.2 = [.responded (cb e.id) ven e.id (optText v)]
  once : ∀ id, toldAbout ven id x.vtn.2 = [] ∨
    ∃ v, Decided h x.calls id v ∧ toldAbout ven id x.vtn.2 = [.responded (cb id) ven id (optText v)]

theorem following_add {lib : Lib} {h : VenHandlers} {cb : String → Nat} {x : Sides} {a : AddArgs} {s' : Server} {id : String} {b : Bool} (hi : InStep lib a.ven x)
    (hx : Following h a.ven cb x) (hadd : addEvent x.vtn.1 a = (s', .ok (some id))) (hc : ∀ c ∈ x.calls, c.event.id ≠ a.eventId)
    (hq : ∀ e ∈ x.vtn.1.queue a.ven, e.id ≠ a.eventId)
    (hcb : a.callback = some (.func (cb a.eventId) b)) : Following h a.ven cb { x with vtn := (s', x.vtn.2) } := by
  obtain ⟨rfl, hint, -, p, hp, hflag, hqueue, hcs, -⟩ := added_state hadd
  rw [hcb] at hcs
  have hcs : s'.callbacks = Dict.set x.vtn.1.callbacks a.eventId (.func (cb a.eventId) b) := hcs
  have hid : (addedEvent a p).id = a.eventId := rfl
  have hm : ∀ e, e ∈ s'.queue a.ven ↔ e ∈ x.vtn.1.queue a.ven ∨ e = addedEvent a p := by intro e; rw [hqueue]; simp
  have hsame : ∀ i, i ≠ a.eventId → Dict.get? s'.callbacks i = Dict.get? x.vtn.1.callbacks i := fun i hi => by rw [hcs, Dict.get?_set_other _ _ _ _ hi]
  have hself : Dict.get? s'.callbacks a.eventId = some (.func (cb a.eventId) b) := by rw [hcs, Dict.get?_set_self]
  have hnone : x.ven.about a.eventId = none := by
    cases h : x.ven.about a.eventId with
    | none => rfl
    | some n =>
      obtain ⟨c, h1, h2⟩ := List.mem_map.mp (hi.known _ _ h)
      exact absurd (congrArg Prod.fst h2) (hc c h1)
  have hsilent : toldAbout a.ven a.eventId x.vtn.2 = [] := by
    rcases hx.once a.eventId with h | ⟨v, ⟨before, e, after, h1, h2, -⟩, -⟩
    · exact h
    · exact absurd h2 (hc (.onEvent e) (by rw [h1]; simp))
  refine ⟨?_, ?_, ?_, ?_, hx.once⟩
  · show (Dict.keys s'.callbacks).Nodup
    rw [hcs]
    exact Dict.nodup_keys_set _ _ _ hx.nodup
  · intro i j f h1 h2
    by_cases hi' : i = a.eventId
    · subst hi'; rw [hself] at h1; cases h1
    · by_cases hj : j = a.eventId
      · subst hj; rw [hself] at h2; cases h2
      · rw [hsame _ hi'] at h1
        rw [hsame _ hj] at h2
        exact hx.unshared i j f h1 h2
  · intro e he hn
    rcases (hm e).mp he with he | rfl
    · show (∃ b, Dict.get? s'.callbacks e.id = _) ∧ _
      rw [hsame _ (hq e he)]
      exact hx.waiting e he hn
    · rw [hid]
      exact ⟨⟨b, hself⟩, hsilent⟩
  · intro e he hn
    rcases (hm e).mp he with he | rfl
    · show Dict.get? s'.callbacks e.id = _ ∧ _
      rw [hsame _ (hq e he)]
      exact hx.settled e he hn
    · rw [hid] at hn
      exact absurd hnone hn

theorem following_cancel {h : VenHandlers} {ven : String} {cb : String → Nat} {x : Sides} (id : String) (hx : Following h ven cb x) :
    Following h ven cb { x with vtn := (cancelEvent x.vtn.1 ven id, x.vtn.2) } := by
  rcases cancelEvent_cases x.vtn.1 ven id with ⟨h, -⟩ | ⟨-, h⟩
  · rw [h]; exact hx
  · have hqueue : (cancelEvent x.vtn.1 ven id).queue ven = updateFirst (hasId id) cancelled (x.vtn.1.queue ven) := by
      rw [h]; simp [Server.queue, Dict.get?_set_self]
    have hcs : (cancelEvent x.vtn.1 ven id).callbacks = x.vtn.1.callbacks := by rw [h]
    have hm : ∀ e ∈ (cancelEvent x.vtn.1 ven id).queue ven, ∃ a ∈ x.vtn.1.queue ven, a.id = e.id := by
      intro e he
      rw [hqueue] at he
      rcases updated_from he with h | ⟨a, h1, -, h2⟩
      · exact ⟨e, h, rfl⟩
      · exact ⟨a, h1, by rw [h2]; rfl⟩
    refine ⟨?_, ?_, ?_, ?_, hx.once⟩
    · show (Dict.keys (cancelEvent x.vtn.1 ven id).callbacks).Nodup
      rw [hcs]; exact hx.nodup
    · intro i j f
      show Dict.get? (cancelEvent x.vtn.1 ven id).callbacks i = _ → Dict.get? (cancelEvent x.vtn.1 ven id).callbacks j = _ → _
      rw [hcs]; exact hx.unshared i j f
    · intro e he hn
      obtain ⟨a, ha, hae⟩ := hm e he
      show (∃ b, Dict.get? (cancelEvent x.vtn.1 ven id).callbacks e.id = _) ∧ _
      rw [hcs, ← hae]
      exact hx.waiting a ha (by rw [hae]; exact hn)
    · intro e he hn
      obtain ⟨a, ha, hae⟩ := hm e he
      show Dict.get? (cancelEvent x.vtn.1 ven id).callbacks e.id = _ ∧ _
      rw [hcs, ← hae]
      exact hx.settled a ha (by rw [hae]; exact hn)

/-- What a poll adds to the log about an event. -/
theorem following_poll {p : PollSetting} {lib : Lib} {h : VenHandlers} (ht : h.Total) {ven : String} {cb : String → Nat} {x : Sides} (hi : InStep lib ven x)
    (hp : p.Fine lib ven x) (hx : Following h ven cb x) : Following h ven cb (p.round h ven x) ∧
      ∀ e ∈ x.vtn.1.queue ven, (e.status = .cancelled ∨ ∀ i, ¬ e.overAt (p.vtnClock i)) →
        ∃ v, Decided h (p.round h ven x).calls e.id v ∧ toldAbout ven e.id (p.round h ven x).vtn.2 = [.responded (cb e.id) ven e.id (optText v)] := by
  cases hflag : x.vtn.1.flag ven with
  | false =>
    have : p.round h ven x = x := c87_nothing_new hp.con (fun txt => hp.asked _ _ txt) (fun q txt => hp.taken _ q txt) hi.internal hflag
    rw [this]
    exact ⟨hx, fun e he _ => (hx.settled e he (by rw [hi.current hflag e he]; simp)).2⟩
  | true =>
    obtain ⟨es, d, k⟩ := round_heard ht hi.ready hp hflag
    obtain ⟨s1, htake⟩ := d.handed
    obtain ⟨hd, -⟩ := handed_distinct htake hi.distinct
    have hd' : Distinct (es.map (Event.arrived p.k.lib p.k.serverNow)) := List.pairwise_map.mpr hd
    obtain ⟨t, rs, c1, c2, c3, c4, c5, c6⟩ := k.answers
    obtain ⟨vs, s', effects, v1, v2, v3, v4⟩ := k.told hx.unshared
    obtain ⟨r1, r2, r3⟩ := respondAll_callbacks p.env hp.quiet ven rs t c3 (by rw [c1]; exact hx.nodup) c4
    rw [← c2] at r1 r2 r3
    rw [c1] at r3
    have hpair : ((es.zip vs).filter (fun q => decide q.1.answered)).Pairwise (fun a b => a.1.id ≠ b.1.id) := by
      refine List.Pairwise.filter _ ?_
      clear v2 v4 c5 c6 d k htake
      induction es generalizing vs with
      | nil => simp
      | cons e es ih =>
        cases vs with
        | nil => simp
        | cons v vs =>
          rw [Distinct, List.pairwise_cons] at hd
          rw [List.zip_cons_cons, List.pairwise_cons]
          exact ⟨fun q hq => hd.1 q.1 (List.of_mem_zip (show (q.1, q.2) ∈ _ from hq)).1, ih hd.2 (List.pairwise_map.mpr hd.2) vs (by simpa using v1)⟩
    have hmore : ∃ more, (p.round h ven x).calls = x.calls ++ more := ⟨_, d.calls⟩
    have hlog : ∀ id, toldAbout ven id (p.round h ven x).vtn.2 = toldAbout ven id x.vtn.2 ++
        toldAbout ven id (((es.zip vs).filter (fun q => decide q.1.answered)).flatMap (fun q => told x.vtn.1 ven q.1.id (optText q.2))) := by
      intro id
      rw [v4, toldAbout_append, toldAbout_append, toldAbout_delivered ven id v3, List.append_nil]
    have hsilent : ∀ id, (∀ e ∈ es, e.answered → e.id ≠ id) → toldAbout ven id (p.round h ven x).vtn.2 = toldAbout ven id x.vtn.2 := by
      intro id hno
      rw [hlog, (toldAbout_answers x.vtn.1 ven id _ hpair).1, List.append_nil]
      intro q hq
      obtain ⟨q1, q2⟩ := List.mem_filter.mp hq
      exact hno q.1 (List.of_mem_zip (show (q.1, q.2) ∈ _ from q1)).1 (of_decide_eq_true q2)
    -- an event that is answered has been told of, now or before
    have hanswered : ∀ e ∈ es, e.answered → ∃ v, Decided h (p.round h ven x).calls e.id v ∧
        toldAbout ven e.id (p.round h ven x).vtn.2 = [.responded (cb e.id) ven e.id (optText v)] := by
      intro e he ha
      obtain ⟨a, haq, j, hea⟩ := handed_from htake he
      have hid : e.id = a.id := by rw [hea]; exact (refresh_members ..).2.2.1
      obtain ⟨i, hil, hei⟩ := List.getElem_of_mem he
      have hiv : i < vs.length := by rw [v1]; exact hil
      have hz : (e, vs[i]) ∈ es.zip vs := by
        rw [← hei]
        exact List.mem_iff_getElem.mpr ⟨i, by simp; omega, by simp⟩
      have hz' : (e.arrived p.k.lib p.k.serverNow, vs[i]) ∈ (es.map (Event.arrived p.k.lib p.k.serverNow)).zip vs := by
        rw [List.zip_map_left, List.mem_map]
        exact ⟨(e, vs[i]), hz, rfl⟩
      have hl := (toldAbout_answers x.vtn.1 ven e.id _ hpair).2 (e, vs[i]) (List.mem_filter.mpr ⟨hz, decide_eq_true ha⟩) rfl
      cases hab : x.ven.about e.id with
      | none =>
        obtain ⟨⟨b, hb⟩, hnone⟩ := hx.waiting a haq (by rw [← hid]; exact hab)
        rw [← hid] at hb hnone
        refine ⟨vs[i], decideAll_decided hd' v2 _ hz' hab, ?_⟩
        rw [hlog, hl, hnone, toldAbout_told, hb]
        simp
      | some n =>
        obtain ⟨hg, v, hv1, hv2⟩ := hx.settled a haq (by rw [← hid, hab]; simp)
        rw [← hid] at hg hv1 hv2
        obtain ⟨more, hm⟩ := hmore
        refine ⟨v, by rw [hm]; exact decided_append more hv1, ?_⟩
        rw [hlog, hl, hv2, toldAbout_told, hg]
        rfl
    have hgood : ∀ e ∈ es, e.responseRequired = some "always" := by
      intro e he
      obtain ⟨a, ha, j, rfl⟩ := handed_from htake he
      rw [(refresh_members ..).2.2.2]
      exact (hi.good a ha).2
    refine ⟨⟨r1, ?_, ?_, ?_, ?_⟩, ?_⟩
    · intro i j f h1 h2
      have back : ∀ i, Dict.get? (p.round h ven x).vtn.1.callbacks i = some (.future f) → Dict.get? x.vtn.1.callbacks i = some (.future f) := by
        intro i h1
        by_cases hr : ∃ r ∈ rs, r.eventId = i
        · obtain ⟨r, hr, rfl⟩ := hr
          rw [r2 r hr] at h1; cases h1
        · rwa [r3 i (fun r hr' he => hr ⟨r, hr', he⟩)] at h1
      exact hx.unshared i j f (back i h1) (back j h2)
    · intro e he hn
      rw [d.current e (d.left e he).1] at hn
      cases hn
    · intro e he _
      obtain ⟨h1, h2, -⟩ := d.left e he
      have ha : e.answered := ⟨hgood e h1, h2⟩
      obtain ⟨r, hr, hre⟩ := c6 e h1 ha
      refine ⟨by rw [← hre]; exact r2 r hr, hanswered e h1 ha⟩
    · intro id
      by_cases hh : ∃ e ∈ es, e.answered ∧ e.id = id
      · obtain ⟨e, he, ha, rfl⟩ := hh
        exact .inr (hanswered e he ha)
      · rw [hsilent id (fun e he ha hid => hh ⟨e, he, ha, hid⟩)]
        obtain ⟨more, hm⟩ := hmore
        rcases hx.once id with h1 | ⟨v, h1, h2⟩
        · exact .inl h1
        · exact .inr ⟨v, by rw [hm]; exact decided_append more h1, h2⟩
    · intro e he hr
      obtain ⟨j, hj⟩ := running_handed htake he hr
      have hid : (refresh (p.vtnClock j) (p.vtnClock (j + 1)) e).id = e.id := (refresh_members ..).2.2.1
      have ha : (refresh (p.vtnClock j) (p.vtnClock (j + 1)) e).answered := by
        refine ⟨hgood _ hj, ?_⟩
        rw [refresh_status]
        split
        · simp
        · rename_i hc
          exact (not_over_iff e _).mpr ((hr.resolve_left hc) j)
      have := hanswered _ hj ha
      rwa [hid] at this

theorem followed_following {lib : Lib} {h : VenHandlers} {ven : String} {cb : String → Nat} {x : Sides} (ht : h.Total) (hx : Followed lib h ven cb x) :
    Following h ven cb x := by
  induction hx with
  | start cache log hlog =>
    refine ⟨by simp [Server.init, Dict.keys], by simp [Unshared, Server.init, Dict.get?], ?_, ?_, fun id => .inl (hlog id)⟩ <;>
      simp [Server.queue, Server.init, Dict.get?]
  | add hx h1 h2 h3 h4 h5 h6 h7 ih =>
    subst h2
    exact following_add (lived_inStep ht (followed_lived hx)) ih h1 h6 h5 h7
  | cancel id _ ih => exact following_cancel id ih
  | @other x cache s' new _ h1 h2 h3 h4 h5 h6 h7 ih =>
    have hl : ∀ id, toldAbout ven id (x.vtn.2 ++ new) = toldAbout ven id x.vtn.2 := fun id => by rw [toldAbout_append, h7, List.append_nil]
    refine ⟨h6, h5, ?_, ?_, ?_⟩
    · intro e he hn
      rw [show (s', x.vtn.2 ++ new).1.queue ven = s'.queue ven from rfl, h1] at he
      show (∃ b, Dict.get? s'.callbacks e.id = _) ∧ toldAbout ven e.id (x.vtn.2 ++ new) = []
      rw [h4 e he, hl]
      exact ih.waiting e he hn
    · intro e he hn
      rw [show (s', x.vtn.2 ++ new).1.queue ven = s'.queue ven from rfl, h1] at he
      show Dict.get? s'.callbacks e.id = none ∧ ∃ v, Decided h x.calls e.id v ∧ toldAbout ven e.id (x.vtn.2 ++ new) = _
      rw [h4 e he, hl]
      exact ih.settled e he hn
    · intro id
      show toldAbout ven id (x.vtn.2 ++ new) = [] ∨ ∃ v, Decided h x.calls id v ∧ toldAbout ven id (x.vtn.2 ++ new) = _
      rw [hl]
      exact ih.once id
  | @log x clock _ ih =>
    refine ⟨ih.nodup, ih.unshared, fun e he hn => ih.waiting e he ?_, fun e he hn => ih.settled e he ?_, ih.once⟩
    · rwa [statusLog_about] at hn
    · rwa [statusLog_about] at hn
  | @forget x clock hx hf ih =>
    have hi := lived_inStep ht (followed_lived hx)
    have hi' := lived_inStep ht (followed_lived (.forget clock hx hf))
    have hsub := cleanup_sublist clock x.ven.received
    have hsame : ∀ e ∈ x.vtn.1.queue ven, VenState.about { x.ven with received := cleanup clock x.ven.received } e.id = none ↔ x.ven.about e.id = none := by
      intro e he
      cases hv : x.ven.about e.id with
      | none =>
        cases hw : VenState.about { x.ven with received := cleanup clock x.ven.received } e.id with
        | none => simp
        | some n =>
          obtain ⟨r, h1, h2⟩ := (about_mem hi'.single).mp hw
          rw [(about_mem hi.single).mpr ⟨r, hsub.subset h1, h2⟩] at hv
          cases hv
      | some n =>
        obtain ⟨r, h1, h2, h3⟩ := (about_mem hi.single).mp hv
        rw [(about_mem hi'.single).mpr ⟨r, hf e he r h1 h2, h2, h3⟩]
    exact ⟨ih.nodup, ih.unshared, fun e he hn => ih.waiting e he ((hsame e he).mp hn), fun e he hn => ih.settled e he (fun h => hn ((hsame e he).mpr h)), ih.once⟩
  | poll p hx hp ih => exact (following_poll ht (lived_inStep ht (followed_lived hx)) hp ih).1

/-! ### The theorems -/

/-- **C107** (partial: as for C91, and each event is added with a function as callback that nobody else is given or takes). However a history went, the callback
    of an event was told at most once about it; and if it was told, it is the callback that the event was added with, and it was told what the handler of the VEN
    decided when it was called for this event as a new one. -/
theorem c107_at_most_once_partial {lib : Lib} {h : VenHandlers} {ven : String} {cb : String → Nat} {x : Sides} (ht : h.Total) (hx : Followed lib h ven cb x)
    (id : String) : toldAbout ven id x.vtn.2 = [] ∨ ∃ v, Decided h x.calls id v ∧ toldAbout ven id x.vtn.2 = [.responded (cb id) ven id (optText v)] :=
  (followed_following ht hx).once id

/-- **C107** (partial: as for `c107_at_most_once_partial`). After a poll, whatever happened before, the callback of each event that the VTN had for this VEN, if it
    is cancelled or not over, was told exactly once, with what the handler of the VEN decided. -/
theorem c107_told_partial {p : PollSetting} {lib : Lib} {h : VenHandlers} {ven : String} {cb : String → Nat} {x : Sides} (ht : h.Total)
    (hx : Followed lib h ven cb x) (hp : p.Fine lib ven x) {e : Event} (he : e ∈ x.vtn.1.queue ven)
    (hr : e.status = .cancelled ∨ ∀ i, ¬ e.overAt (p.vtnClock i)) :
    ∃ v, Decided h (p.round h ven x).calls e.id v ∧ toldAbout ven e.id (p.round h ven x).vtn.2 = [.responded (cb e.id) ven e.id (optText v)] :=
  (following_poll ht (lived_inStep ht (followed_lived hx)) hp (followed_following ht hx)).2 e he hr

/-- **C107, refuted** for an event that ends before the VEN hears of it: the poll takes it from the VTN's queue, and its callback was not told anything. -/
theorem c107_over_violated {p : PollSetting} {lib : Lib} {h : VenHandlers} {ven : String} {cb : String → Nat} {x : Sides} (ht : h.Total)
    (hx : Followed lib h ven cb x) (hp : p.Fine lib ven x) (hflag : x.vtn.1.flag ven = true) {e : Event} (he : e ∈ x.vtn.1.queue ven)
    (hc : e.status ≠ .cancelled) (hover : ∀ i, e.overAt (p.vtnClock i)) (hnew : x.ven.about e.id = none) :
    toldAbout ven e.id (p.round h ven x).vtn.2 = [] ∧ ∀ a ∈ (p.round h ven x).vtn.1.queue ven, a.id ≠ e.id := by
  have hi := lived_inStep ht (followed_lived hx)
  have hf := followed_following ht hx
  obtain ⟨es, d, k⟩ := round_heard ht hi.ready hp hflag
  obtain ⟨s1, htake⟩ := d.handed
  obtain ⟨vs, s', effects, v1, v2, v3, v4⟩ := k.told hf.unshared
  have hdone : ∀ a ∈ es, a.id = e.id → a.status = .completed := by
    intro a ha hid
    obtain ⟨b, hb, j, rfl⟩ := handed_from htake ha
    rw [(refresh_members ..).2.2.1] at hid
    rw [same_of_ids hi.distinct hb he hid, refresh_status, if_neg hc]
    exact Classical.byContradiction (fun hn => (not_over_iff e _).mp hn (hover j))
  refine ⟨?_, fun a ha hid => ?_⟩
  · rw [v4, toldAbout_append, toldAbout_append, toldAbout_delivered ven _ v3, (hf.waiting e he hnew).2]
    show toldAbout ven e.id (List.flatMap _ _) = []
    rw [toldAbout, List.filter_eq_nil_iff]
    intro f hfm
    obtain ⟨q, hq, hfq⟩ := List.mem_flatMap.mp hfm
    obtain ⟨q1, q2⟩ := List.mem_filter.mp hq
    have hne : q.1.id ≠ e.id := fun hid => (of_decide_eq_true q2 : q.1.answered).2 (hdone q.1 (List.of_mem_zip (show (q.1, q.2) ∈ _ from q1)).1 hid)
    have hnil : toldAbout ven e.id (told x.vtn.1 ven q.1.id (optText q.2)) = [] := by
      rw [toldAbout_told]
      split
      · rw [if_neg hne]
      · rfl
    exact List.filter_eq_nil_iff.mp hnil f hfq
  · obtain ⟨h1, h2, -⟩ := d.left a ha
    exact h2 (hdone a h1 hid)

/-! ### A case -/

def tellingArgs : AddArgs := { firstArgs with callback := some (.func 7 true) }

def tellingStart : Sides := fresh.added tellingArgs

theorem telling_followed : Followed plainLib easyHandlers "ven1" (fun _ => 7) tellingStart := by
  have g := eventArgs_good "event1" 3600000000 "always" (ordinary_of (by decide +kernel)) (by constructor <;> decide +kernel)
  refine .add (.start _ _ (fun _ => rfl)) (a := tellingArgs) (id := "event1") (b := true) (by rfl) rfl
    ⟨g.id, g.context, g.signal, g.now, g.starts, g.durations, g.total, g.payloads, g.numbers, g.levels, g.targets, g.plain⟩ rfl ?_ ?_ rfl
  · intro e he
    rw [show fresh.vtn.1.queue "ven1" = [] from rfl] at he
    simp at he
  · intro c hc
    rw [show fresh.calls = [] from rfl] at hc
    simp at hc

theorem queue_telling : tellingStart.vtn.1.queue "ven1" = [event1] := by rfl

/-- An event is added with the callback 7, and the VEN polls: the callback is called once, with the answer of the VEN's handler. -/
example : let y := (pollAt 0).round easyHandlers "ven1" tellingStart
    ∃ v, Decided easyHandlers y.calls "event1" v ∧ toldAbout "ven1" "event1" y.vtn.2 = [.responded 7 "ven1" "event1" (optText v)] := by
  refine c107_told_partial easy_total telling_followed ?_ (e := event1) (by rw [queue_telling]; simp)
    (.inr (fun i h => absurd h.2 (by change ¬ ((3600000000 : Int) + 1800000000 ≤ 0); decide)))
  refine pollAt_fine datable0 rfl ?_ ?_ <;> rw [queue_telling] <;> intro e he <;> rw [List.mem_singleton.mp he]
  · rfl
  · intro h; cases h

/-- The VEN polls for the first time when the event is over: the callback is not called, and the event is gone. -/
example : let y := (pollAt halfPastOne).round easyHandlers "ven1" tellingStart
    toldAbout "ven1" "event1" y.vtn.2 = [] ∧ ∀ a ∈ y.vtn.1.queue "ven1", a.id ≠ "event1" := by
  refine c107_over_violated easy_total telling_followed ?_ (by rfl) (e := event1) (by rw [queue_telling]; simp) (by decide +kernel)
    (fun i => ⟨by decide +kernel, (by decide +kernel : event1.activePeriod.dtstart + event1.activePeriod.duration ≤ halfPastOne)⟩) rfl
  refine pollAt_fine (by constructor <;> decide +kernel) rfl ?_ ?_ <;> rw [queue_telling] <;> intro e he <;> rw [List.mem_singleton.mp he]
  · rfl
  · intro h; cases h

end Openleadr
