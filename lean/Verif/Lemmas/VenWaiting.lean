import Verif.Model.VenWaiting
import Verif.Lemmas.VenEvents
/-!
Lemmas about handlers that take their time.
-/
namespace Openleadr

theorem runVenActs_append (h : VenHandlers) (v : WaitingVen) (a b : List VenAct) :
    runVenActs h v (a ++ b) = ((runVenActs h (runVenActs h v a).1 b).1, (runVenActs h v a).2 ++ (runVenActs h (runVenActs h v a).1 b).2) := by
  induction a generalizing v with
  | nil => rfl
  | cons x a ih => simp only [List.cons_append, runVenActs, ih, List.append_assoc]

/-! ### without the jobs, the loop is the one of `onEventMessage` -/

/-- Results found later come after those found before. -/
def after (results : List Value) : VenState × List VenCall × Res (List Value) → VenState × List VenCall × Res (List Value)
  | (s, calls, .ok vs) => (s, calls, .ok (results ++ vs))
  | (s, calls, .error e) => (s, calls, .error e)

/-- What is left of the loop when the handler answers, done without interruption. -/
def restOf (h : VenHandlers) (s : VenState) (calls : List VenCall) (w : Work) : VenState × List VenCall × Res (List Value) :=
  match w.outcome with
  | .error e => (s, calls, .error e)
  | .ok x => after (w.results ++ [x]) (decideAll h calls { s with responded := remember s.responded w.event x } w.rest)

theorem after_after (a b : List Value) (x : VenState × List VenCall × Res (List Value)) : after a (after b x) = after (a ++ b) x := by
  obtain ⟨s, c, r⟩ := x
  cases r <;> simp [after]

theorem after_nil (x : VenState × List VenCall × Res (List Value)) : after [] x = x := by
  obtain ⟨s, c, r⟩ := x
  cases r <;> simp [after]

theorem decideAll_step (h : VenHandlers) (calls : List VenCall) (s : VenState) (e : Event) (es : List Event) :
    decideAll h calls s (e :: es) = (match decideEvent h calls s e with
      | (s', calls', .error err) => (s', calls', .error err)
      | (s', calls', .ok v) => after [v] (decideAll h calls' { s' with responded := remember s'.responded e v } es)) := by
  simp only [decideAll]
  cases decideEvent h calls s e with
  | mk s' x =>
    obtain ⟨c', r⟩ := x
    cases r with
    | error err => rfl
    | ok v =>
      simp only
      cases decideAll h c' { s' with responded := remember s'.responded e v } es with
      | mk s2 y => obtain ⟨c2, r2⟩ := y; cases r2 <;> rfl

/-- The loop in parts. -/
theorem proceed_rest (h : VenHandlers) (m : EventMessage) (es : List Event) (results : List Value) (s : VenState) (calls : List VenCall) :
    (match proceed h m results s calls es with
      | (s', calls', .inl w) => restOf h s' calls' w
      | (s', calls', .inr r) => (s', calls', r)) = after results (decideAll h calls s es) := by
  induction es generalizing results s calls with
  | nil => simp [proceed, decideAll, after]
  | cons e es ih =>
    rw [decideAll_step, proceed]
    cases hd : decideEvent h calls s e with
    | mk s' x =>
      obtain ⟨c', r⟩ := x
      cases isKnown s e with
      | false =>
        cases r with
        | error err => rfl
        | ok v => simp only [restOf, after_after]
      | true =>
        cases r with
        | error err => rfl
        | ok v => simp only [ih, after_after]

theorem proceed_message (h : VenHandlers) (m : EventMessage) (es : List Event) (results : List Value) (s : VenState) (calls : List VenCall)
    {s' : VenState} {calls' : List VenCall} {w : Work} (hp : proceed h m results s calls es = (s', calls', .inl w)) :
    w.message = m ∧ w.rest.length < es.length ∧ ∀ e ∈ w.rest, e ∈ es := by
  induction es generalizing results s calls with
  | nil => simp [proceed] at hp
  | cons e es ih =>
    rw [proceed] at hp
    cases hd : decideEvent h calls s e with
    | mk s1 x =>
      obtain ⟨c1, r⟩ := x
      rw [hd] at hp
      cases hk : isKnown s e with
      | false =>
        rw [hk] at hp
        simp only [Prod.mk.injEq, Sum.inl.injEq] at hp
        obtain ⟨-, -, rfl⟩ := hp
        exact ⟨rfl, by simp, fun e he => by simp [he]⟩
      | true =>
        cases r with
        | error err => rw [hk] at hp; simp at hp
        | ok v =>
          rw [hk] at hp
          obtain ⟨a, b, c⟩ := ih _ _ _ hp
          exact ⟨a, by simp only [List.length_cons]; omega, fun x hx => by simp [c x hx]⟩

theorem onEventMessage_reply (h : VenHandlers) (clock : Nat → Int) (calls : List VenCall) (s : VenState) (m : EventMessage) :
    onEventMessage h clock calls s m = (match resultsOf h calls s m with
      | (s', calls', invalid, results) => (s', calls', replyFor clock m invalid results)) := by
  unfold onEventMessage replyFor
  cases resultsOf h calls s m with
  | mk s' x =>
    obtain ⟨c', i, rs⟩ := x
    simp only
    cases responsesFor clock m.requestId 0 m.events rs <;> rfl

theorem decideEvent_prefix (h : VenHandlers) (calls : List VenCall) (s : VenState) (e : Event) : calls <+: (decideEvent h calls s e).2.1 := by
  unfold decideEvent
  split
  · split
    · split <;> exact List.prefix_refl _
    · exact List.prefix_append _ _
  · exact List.prefix_append _ _

theorem proceed_prefix (h : VenHandlers) (m : EventMessage) (es : List Event) (results : List Value) (s : VenState) (calls : List VenCall) :
    calls <+: (proceed h m results s calls es).2.1 := by
  induction es generalizing results s calls with
  | nil => exact List.prefix_refl _
  | cons e es ih =>
    have hp := decideEvent_prefix h calls s e
    rw [proceed]
    cases hd : decideEvent h calls s e with
    | mk s1 x =>
      obtain ⟨c1, r⟩ := x
      rw [hd] at hp
      cases isKnown s e with
      | false => exact hp
      | true =>
        cases r with
        | error err => exact hp
        | ok v => exact hp.trans (ih _ _ _)

/-! ### the memory about events to come -/

/-- Two memories agree about an event: the same revisions, in order. -/
def AgreeAbout (id : String) (l l' : List Event) : Prop := (ofId id l).map Event.modnum = (ofId id l').map Event.modnum

theorem agree_refl (id : String) (l : List Event) : AgreeAbout id l l := rfl

theorem agree_find {id : String} {l l' : List Event} (h : AgreeAbout id l l') :
    (l.find? (fun r => decide (r.id = id))).map Event.modnum = (l'.find? (fun r => decide (r.id = id))).map Event.modnum := by
  rw [find_ofId, find_ofId, ← List.head?_map, ← List.head?_map, h]

theorem agree_append {id : String} {l l' : List Event} (h : AgreeAbout id l l') (e : Event) : AgreeAbout id (l ++ [e]) (l' ++ [e]) := by
  unfold AgreeAbout
  rw [ofId_append, ofId_append, List.map_append, List.map_append, h]

theorem agree_drop {id : String} {l l' : List Event} (h : AgreeAbout id l l') (id' : String) : AgreeAbout id (dropFirst id' l) (dropFirst id' l') := by
  unfold AgreeAbout
  by_cases hid : id = id'
  · subst hid
    rw [ofId_dropFirst_self, ofId_dropFirst_self, List.map_tail, List.map_tail, h]
  · rw [ofId_dropFirst_other _ _ _ hid, ofId_dropFirst_other _ _ _ hid, h]

theorem agree_statusLog {id : String} {l l' : List Event} (h : AgreeAbout id l l') (clock : Nat → Int) : AgreeAbout id (statusLog clock 0 l) l' := by
  unfold AgreeAbout
  rw [← h]
  have := congrArg (List.map (fun x : String × Int × ActivePeriod => x.2.1)) (ofId_statusLog id clock l 0)
  simpa [List.map_map, Function.comp_def] using this

theorem agree_cleanup {id : String} {l l' : List Event} (h : AgreeAbout id l l') (clock : Nat → Int)
    (hk : ∀ e ∈ l, e.id = id → e.status ≠ .cancelled ∧ ∀ i, determineStatus (clock i) e.activePeriod ≠ .completed) : AgreeAbout id (cleanup clock l) l' := by
  unfold AgreeAbout
  rw [← h]
  show (List.filter _ _).map _ = _
  rw [cleanup_keeps clock _ l (fun e he hp => hk e he (by simpa using hp))]
  rfl

/-- Two memories that agree about some ids and have the same decisions. -/
def SimilarAbout (ids : List String) (s s' : VenState) : Prop := s.responded = s'.responded ∧ ∀ id ∈ ids, AgreeAbout id s.received s'.received

theorem isKnown_eq (s : VenState) (e : Event) :
    isKnown s e = decide ((s.received.find? (fun r => decide (r.id = e.id))).map Event.modnum = some e.modnum) := by
  unfold isKnown
  cases s.received.find? (fun r => decide (r.id = e.id)) <;> simp

theorem similar_known {ids : List String} {s s' : VenState} (h : SimilarAbout ids s s') {e : Event} (he : e.id ∈ ids) : isKnown s e = isKnown s' e := by
  rw [isKnown_eq, isKnown_eq, agree_find (h.2 _ he)]

theorem similar_decide (hd : VenHandlers) {ids : List String} {s s' : VenState} (h : SimilarAbout ids s s') {e : Event} (he : e.id ∈ ids) (calls : List VenCall) :
    SimilarAbout ids (decideEvent hd calls s e).1 (decideEvent hd calls s' e).1 ∧ (decideEvent hd calls s e).2 = (decideEvent hd calls s' e).2 := by
  have hf := agree_find (h.2 _ he)
  unfold decideEvent
  cases h1 : s.received.find? (fun r => decide (r.id = e.id)) with
  | none =>
    cases h2 : s'.received.find? (fun r => decide (r.id = e.id)) with
    | some r => rw [h1, h2] at hf; simp at hf
    | none => exact ⟨⟨h.1, fun id hid => agree_append (h.2 id hid) e⟩, rfl⟩
  | some r =>
    cases h2 : s'.received.find? (fun r => decide (r.id = e.id)) with
    | none => rw [h1, h2] at hf; simp at hf
    | some r' =>
      rw [h1, h2] at hf
      simp only [Option.map_some, Option.some.injEq] at hf
      simp only [hf]
      split
      · rw [h.1]
        cases Dict.get? s'.responded e.id <;> exact ⟨h, rfl⟩
      · rw [h.1]
        exact ⟨⟨rfl, fun id hid => agree_append (agree_drop (h.2 id hid) e.id) e⟩, rfl⟩

theorem similar_remember {ids : List String} {s s' : VenState} (h : SimilarAbout ids s s') (e : Event) (v : Value) :
    SimilarAbout ids { s with responded := remember s.responded e v } { s' with responded := remember s'.responded e v } :=
  ⟨by show remember _ _ _ = remember _ _ _; rw [h.1], h.2⟩

theorem similar_proceed (hd : VenHandlers) (m : EventMessage) {ids : List String} (es : List Event) (hes : ∀ e ∈ es, e.id ∈ ids) (results : List Value)
    {s s' : VenState} (h : SimilarAbout ids s s') (calls : List VenCall) :
    SimilarAbout ids (proceed hd m results s calls es).1 (proceed hd m results s' calls es).1 ∧
      (proceed hd m results s calls es).2 = (proceed hd m results s' calls es).2 := by
  induction es generalizing results s s' calls with
  | nil => exact ⟨h, rfl⟩
  | cons e es ih =>
    have he := hes e (by simp)
    obtain ⟨h1, h2⟩ := similar_decide hd h he calls
    have hk := similar_known h he
    rw [proceed, proceed, hk]
    cases hd1 : decideEvent hd calls s e with
    | mk s1 x =>
      cases hd2 : decideEvent hd calls s' e with
      | mk s2 y =>
        rw [hd1, hd2] at h1 h2
        simp only at h1 h2
        subst h2
        obtain ⟨c', r⟩ := x
        cases isKnown s' e with
        | false => exact ⟨h1, rfl⟩
        | true =>
          cases r with
          | error err => exact ⟨h1, rfl⟩
          | ok v => exact ih (fun x hx => hes x (by simp [hx])) _ (similar_remember h1 e v) _

end Openleadr
