import Verif.Lemmas.ServerHistory
/-!
What a VEN gets depends only on its own part of the state.
-/
namespace Openleadr
open Spec

/-- The states agree for one VEN. -/
def Agree (v : String) (s t : Server) : Prop := SameFor v s t ∧ t.external = s.external

theorem recordCompleted_get (d d' : List (String × List String)) (v : String) (old new : List String)
    (h : Dict.get? d' v = Dict.get? d v) :
    Dict.get? (recordCompleted d' v old new) v = Dict.get? (recordCompleted d v old new) v := by
  simp only [recordCompleted]
  split
  · exact h
  · simp only [Dict.get?_set_self]

theorem takeEvents_agree (clock : Nat → Int) (s t : Server) (v : String) (h : SameFor v s t) :
    SameFor v (takeEvents clock s v).1 (takeEvents clock t v).1 ∧ (takeEvents clock t v).2 = (takeEvents clock s v).2 := by
  obtain ⟨h1, h2, h3⟩ := h
  have hc : t.completedOf v = s.completedOf v := by simp only [Server.completedOf, h3]
  simp only [takeEvents, h1]
  cases hq : Dict.get? s.events v with
  | none => exact ⟨⟨h1, h2, h3⟩, rfl⟩
  | some q =>
    cases q with
    | nil => exact ⟨⟨h1, h2, h3⟩, rfl⟩
    | cons e q =>
      simp only [hc]
      split
      · exact ⟨⟨by simp only [Dict.get?_set_self], h2, recordCompleted_get _ _ _ _ _ h3⟩, rfl⟩
      · exact ⟨⟨by simp only [Dict.get?_set_self], h2, recordCompleted_get _ _ _ _ _ h3⟩, rfl⟩

theorem deliverAll_quiet (env : Env) (hq : ∀ e, env.raises e = none) (d : List (String × Nat)) (l : List Event) :
    (deliverAll env d l).2 = none := by
  induction l with
  | nil => rfl
  | cons e l ih =>
    simp only [deliverAll]
    split
    · exact ih
    · rw [hq]; exact ih

theorem requestEvent_agree (env : Env) (hq : ∀ e, env.raises e = none) (clock : Nat → Int) (s t : Server) (v : String)
    (h : Agree v s t) :
    Agree v (requestEvent env clock s v).1 (requestEvent env clock t v).1 ∧
      (requestEvent env clock t v).2.2 = (requestEvent env clock s v).2.2 := by
  obtain ⟨h, he⟩ := h
  have reply : ∀ (d : List (String × Nat)) (st : Server) (l : List Event),
      (match deliverAll env d l with
        | (effects, some err) => (st, effects, Except.error err)
        | (effects, none) => (st, effects, .ok (Reply.distribute l)) : Server × List Effect × Res Reply).2.2 = .ok (.distribute l) := by
    intro d st l
    have := deliverAll_quiet env hq d l
    cases hx : deliverAll env d l with
    | mk a b => rw [hx] at this; simp only at this; subst this; rfl
  cases hx : s.external with
  | true =>
    rw [requestEvent_state_external env clock s v hx, requestEvent_state_external env clock t v (he.trans hx)]
    refine ⟨⟨h, he⟩, ?_⟩
    simp only [requestEvent, hx, he, if_true]
    cases (env.onRequestEvent v).map (fun l => (orderEvents clock l none none).result) with
    | none => rfl
    | some l => exact (reply _ _ _).trans (reply _ _ _).symm
  | false =>
    have hx' := he.trans hx
    rw [requestEvent_state env clock s v hx, requestEvent_state env clock t v hx']
    obtain ⟨a1, a2⟩ := takeEvents_agree clock s t v h
    refine ⟨⟨a1, by rw [(takeEvents_frame clock s v).1, (takeEvents_frame clock t v).1, he]⟩, ?_⟩
    simp only [requestEvent, hx, hx', Bool.false_eq_true, if_false, a2]
    cases (takeEvents clock s v).2 with
    | none => rfl
    | some l => exact (reply _ _ _).trans (reply _ _ _).symm

theorem respondOne_agree (env : Env) (hq : ∀ e, env.raises e = none) (s t : Server) (v : String) (r : EventResponse)
    (h : SameFor v s t) :
    SameFor v (respondOne env s v r).1 (respondOne env t v r).1 ∧ (respondOne env t v r).2.2 = (respondOne env s v r).2.2 := by
  have fq : ∀ s, (fireCallback env s v r).2.2 = none := by
    intro s
    simp only [fireCallback]
    split
    · rfl
    · split <;> rfl
    · exact hq _
  have fs : ∀ s t, SameFor v s t → SameFor v (fireCallback env s v r).1 (fireCallback env t v r).1 := by
    intro s t h
    obtain ⟨a1, a2, a3, _⟩ := fireCallback_frame env s v r
    obtain ⟨b1, b2, b3, _⟩ := fireCallback_frame env t v r
    exact ⟨by rw [a1, b1]; exact h.1, by rw [a2, b2]; exact h.2.1, by rw [a3, b3]; exact h.2.2⟩
  have hc : t.completedOf v = s.completedOf v := by simp only [Server.completedOf, h.2.2]
  simp only [respondOne, h.1, hc]
  cases hg : Dict.get? s.events v with
  | none => exact ⟨h, rfl⟩
  | some q =>
    simp only
    cases hf : q.find? (hasIdAndNumber r) with
    | none =>
      simp only
      split <;> exact ⟨h, rfl⟩
    | some e =>
      simp only
      split
      · exact ⟨fs _ _ ⟨by simp only [Dict.get?_set_self], h.2.1, h.2.2⟩, by rw [fq, fq]⟩
      · exact ⟨fs _ _ h, by rw [fq, fq]⟩

theorem respondAll_agree (env : Env) (hq : ∀ e, env.raises e = none) (s t : Server) (v : String) (rs : List EventResponse)
    (h : SameFor v s t) :
    SameFor v (respondAll env s v rs).1 (respondAll env t v rs).1 ∧ (respondAll env t v rs).2.2 = (respondAll env s v rs).2.2 := by
  induction rs generalizing s t with
  | nil => exact ⟨h, rfl⟩
  | cons r rs ih =>
    obtain ⟨h1, h2⟩ := respondOne_agree env hq s t v r h
    simp only [respondAll]
    cases hx : respondOne env s v r with
    | mk s' y =>
      obtain ⟨effs, o⟩ := y
      cases hx' : respondOne env t v r with
      | mk t' y' =>
        obtain ⟨effs', o'⟩ := y'
        rw [hx, hx'] at h1 h2
        simp only at h1 h2
        subst h2
        cases o' with
        | some err => exact ⟨h1, rfl⟩
        | none => exact ih s' t' h1

theorem respondExternal_quiet (env : Env) (hq : ∀ e, env.raises e = none) (v : String) (rs : List EventResponse) :
    (respondExternal env v rs).2 = none := by
  induction rs with
  | nil => rfl
  | cons r rs ih => simp only [respondExternal, hq]; exact ih

theorem addRawEvent_agree (s t : Server) (v : String) (e : Event) (c : Option Callback) (d : Option Nat) (h : Agree v s t) :
    Agree v (addRawEvent s v e c d).1 (addRawEvent t v e c d).1 ∧ (addRawEvent t v e c d).2 = (addRawEvent s v e c d).2 := by
  obtain ⟨⟨h1, h2, h3⟩, he⟩ := h
  simp only [addRawEvent]
  cases callbackOk e c with
  | error x => exact ⟨⟨⟨h1, h2, h3⟩, he⟩, rfl⟩
  | ok u =>
    simp only
    cases eventPeriod e.signals with
    | error x =>
      refine ⟨⟨⟨?_, h2, h3⟩, he⟩, rfl⟩
      simp only [ensureKey_get, h1]
    | ok p =>
      refine ⟨⟨⟨?_, ?_, h3⟩, he⟩, rfl⟩
      · simp only [Dict.get?_set_self, Server.queue, h1]
      · simp only [Dict.get?_set_self]

theorem step_agree (env : Env) (hq : ∀ e, env.raises e = none) (s t : Server) (op : Op) (h : Agree op.ven s t) :
    Agree op.ven (step env s op).1 (step env t op).1 ∧ (step env t op).2.2 = (step env s op).2.2 := by
  have ext : ∀ {v : String} {s' t' : Server}, SameFor v s' t' → s' = (step env s op).1 → t' = (step env t op).1 → Agree v s' t' := by
    intro v s' t' hs ha hb
    exact ⟨hs, by rw [ha, hb, step_external, step_external]; exact h.2⟩
  cases op with
  | add a =>
    simp only [Op.ven] at h ⊢
    simp only [step, addEvent, h.2]
    split
    · exact ⟨h, rfl⟩
    · split
      · exact ⟨h, rfl⟩
      · split
        · exact ⟨h, rfl⟩
        · split
          · exact ⟨h, rfl⟩
          · split
            · exact ⟨h, rfl⟩
            · rename_i p _
              obtain ⟨a1, a2⟩ := addRawEvent_agree s t a.ven (makeEvent a p) a.callback a.delivery h
              cases hx : addRawEvent s a.ven (makeEvent a p) a.callback a.delivery with
              | mk s' r =>
                cases hx' : addRawEvent t a.ven (makeEvent a p) a.callback a.delivery with
                | mk t' r' =>
                  rw [hx, hx'] at a1 a2
                  simp only at a1 a2
                  subst a2
                  cases r' <;> exact ⟨a1, rfl⟩
  | addRaw v e c d =>
    obtain ⟨a1, a2⟩ := addRawEvent_agree s t v e c d h
    exact ⟨a1, by simp only [step, a2]⟩
  | cancel v id =>
    refine ⟨ext ?_ rfl rfl, rfl⟩
    simp only [Op.ven] at h
    obtain ⟨⟨h1, h2, h3⟩, he⟩ := h
    simp only [step, cancelEvent, Op.ven, h1]
    cases hg : Dict.get? s.events v with
    | none => exact ⟨h1, h2, h3⟩
    | some q =>
      simp only
      cases q.find? (hasId id) with
      | none => exact ⟨h1, h2, h3⟩
      | some _ => exact ⟨by simp only [Dict.get?_set_self], by simp only [Dict.get?_set_self], h3⟩
  | request v clock =>
    obtain ⟨a1, a2⟩ := requestEvent_agree env hq clock s t v h
    exact ⟨a1, by simp only [step, a2]⟩
  | poll v clock =>
    simp only [Op.ven] at h
    have hf : t.flag v = s.flag v := by simp only [Server.flag, h.1.2.1]
    simp only [step, Op.ven, poll, h.2, hf]
    split
    · rw [hq]; exact ⟨h, rfl⟩
    · split
      · obtain ⟨a1, a2⟩ := requestEvent_agree env hq clock s t v h
        cases hx : requestEvent env clock s v with
        | mk s' y =>
          obtain ⟨effs, o⟩ := y
          cases hx' : requestEvent env clock t v with
          | mk t' y' =>
            obtain ⟨effs', o'⟩ := y'
            rw [hx, hx'] at a1 a2
            simp only at a1 a2
            subst a2
            cases o' with
            | error err => exact ⟨a1, rfl⟩
            | ok r => exact ⟨⟨⟨a1.1.1, by simp only [Dict.get?_set_self], a1.1.2.2⟩, a1.2⟩, rfl⟩
      · exact ⟨h, rfl⟩
  | respond v rs =>
    simp only [Op.ven] at h
    simp only [step, Op.ven, createdEvent, h.2]
    cases hx : s.external with
    | true =>
      simp only [if_true, respondExternal_quiet env hq]
      exact ⟨h, trivial⟩
    | false =>
      simp only [Bool.false_eq_true, if_false]
      obtain ⟨a1, a2⟩ := respondAll_agree env hq s t v rs h.1
      have e1 := (respondAll_frame env s v rs).2.2.2.1
      have e2 := (respondAll_frame env t v rs).2.2.2.1
      cases hx : respondAll env s v rs with
      | mk s' y =>
        obtain ⟨effs, o⟩ := y
        cases hx' : respondAll env t v rs with
        | mk t' y' =>
          obtain ⟨effs', o'⟩ := y'
          rw [hx, hx'] at a1 a2
          rw [hx] at e1
          rw [hx'] at e2
          simp only at a1 a2 e1 e2
          subst a2
          cases o' with
          | some err => exact ⟨⟨a1, by rw [e1, e2, h.2]⟩, rfl⟩
          | none => exact ⟨⟨a1, by rw [e1, e2, h.2]⟩, rfl⟩

end Openleadr
