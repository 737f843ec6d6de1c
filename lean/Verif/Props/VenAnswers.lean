import Verif.Props.VenEvents
/-!
C77 The codes of the VEN's answers say what was wrong.
-/
namespace Openleadr

/-- The names of signals of OpenADR 2.0b, as the library knows them. -/
def Spec.signalNames : List String :=
  ["SIMPLE", "simple", "ELECTRICITY_PRICE", "ENERGY_PRICE", "DEMAND_CHARGE", "BID_PRICE", "BID_LOAD", "BID_ENERGY", "CHARGE_STATE", "LOAD_DISPATCH",
   "LOAD_CONTROL"]

/-- The code that an event is answered with. -/
def Spec.codeOf (e : Event) : Nat := if ∃ s ∈ e.signals, s.signalName ∉ Spec.signalNames then 460 else 200

theorem responseCode_spec (e : Event) : responseCode e = Spec.codeOf e := by
  have same : signalNames = Spec.signalNames := rfl
  unfold responseCode Spec.codeOf
  by_cases h : e.signals.all (fun s => signalNames.contains s.signalName) = true
  · rw [if_pos h, if_neg]
    rintro ⟨s, hs, hn⟩
    rw [List.all_eq_true] at h
    have := h s hs
    rw [same, List.contains_eq_mem, decide_eq_true_iff] at this
    exact hn this
  · rw [if_neg h, if_pos]
    rw [Bool.not_eq_true, List.all_eq_false] at h
    obtain ⟨s, hs, hn⟩ := h
    rw [same, List.contains_eq_mem, decide_eq_true_iff] at hn
    exact ⟨s, hs, hn⟩

theorem responsesFor_codes (clock : Nat → Int) (q : Value) (es : List Event) (vs : List Value) (i : Nat) (h : vs.length = es.length) :
    (responsesFor clock q i es vs).map (fun x => (x.eventId, x.code)) =
      ((es.zipIdx i).filter (wantsAnswer clock)).map (fun p => (p.1.id, Spec.codeOf p.1)) := by
  induction es generalizing vs i with
  | nil => simp [responsesFor]
  | cons e es ih =>
    cases vs with
    | nil => simp at h
    | cons v vs =>
      have hc : (e.responseRequired = some "always" ∧ determineStatus (clock i) e.activePeriod ≠ .completed) ↔ wantsAnswer clock (e, i) = true := by
        rw [not_completed_iff]; unfold wantsAnswer; rw [decide_eq_true_iff]
      have ih' := ih vs (i + 1) (by simpa using h)
      simp only [responsesFor, List.zipIdx_cons, List.filter_cons]
      by_cases hw : wantsAnswer clock (e, i) = true
      · rw [if_pos (hc.mpr hw), if_pos hw, List.map_cons, List.map_cons, ih', responseCode_spec]
      · rw [if_neg (fun h' => hw (hc.mp h')), if_neg hw, ih']

/-- **C77** (partial: private names count as unknown, see `c77_private_name_violated`). Each event that is answered is answered with 460 if one of
    its signals has a name that is not one of OpenADR's, and with 200 otherwise. -/
theorem c77_event_codes_partial (h : VenHandlers) (clock : Nat → Int) (calls : List VenCall) (s : VenState) (m : EventMessage) (c : CreatedEvent)
    (hc : (onEventMessage h clock calls s m).2.2 = some c) :
    c.responses.map (fun x => (x.eventId, x.code)) = (m.events.zipIdx.filter (wantsAnswer clock)).map (fun p => (p.1.id, Spec.codeOf p.1)) := by
  have hl := resultsOf_length h calls s m
  unfold onEventMessage at hc
  cases hr : resultsOf h calls s m with
  | mk s' x =>
    obtain ⟨c', inv, r⟩ := x
    rw [hr] at hl hc
    rw [← responsesFor_codes clock m.requestId m.events r 0 hl]
    cases hx : responsesFor clock m.requestId 0 m.events r with
    | nil => simp [hx] at hc
    | cons y ys =>
      simp only [hx, Option.some.injEq] at hc
      rw [← hc]

/-- **C77**: the message as a whole is answered with 452 exactly if the id of the VTN is in lower case. -/
theorem c77_message_code (h : VenHandlers) (clock : Nat → Int) (calls : List VenCall) (s : VenState) (m : EventMessage) (c : CreatedEvent)
    (hc : (onEventMessage h clock calls s m).2.2 = some c) :
    (c.code = 452 ∨ c.code = 200) ∧
    (c.code = 452 ↔ ∃ t : String, m.vtnId = .str t ∧ (∃ x ∈ t.toList, x.isLower) ∧ ∀ x ∈ t.toList, ¬ x.isUpper) := by
  unfold onEventMessage at hc
  have hi : (resultsOf h calls s m).2.2.1 = true ↔ ∃ t : String, m.vtnId = .str t ∧ (∃ x ∈ t.toList, x.isLower) ∧ ∀ x ∈ t.toList, ¬ x.isUpper := by
    unfold resultsOf
    cases hv : m.vtnId with
    | str t =>
      have : isLowerText t = true ↔ (∃ x ∈ t.toList, x.isLower) ∧ ∀ x ∈ t.toList, ¬ x.isUpper := by simp [isLowerText]
      simp only [Value.str.injEq, exists_eq_left']
      rw [← this]
      by_cases hl : isLowerText t = true
      · simp [hl]
      · simp only [hl, Bool.false_eq_true, if_false]
        split <;> simp
    | _ => simp
  cases hr : resultsOf h calls s m with
  | mk s' x =>
    obtain ⟨c', inv, r⟩ := x
    rw [hr] at hc hi
    simp only at hi
    rw [← hi]
    cases hx : responsesFor clock m.requestId 0 m.events r with
    | nil => simp [hx] at hc
    | cons y ys =>
      simp only [hx, Option.some.injEq] at hc
      rw [← hc]
      cases inv <;> simp

/-- An event with a signal of this name. -/
def signalEvent (id name : String) : Event :=
  { venEvent id 0 with signals := [{ intervals := [], signalName := name, signalType := "level", signalId := "s" }] }

example : ((onEventMessage easyHandlers (fun _ => 50) [] noEvents ⟨.str "VTN1", .str "q", [venEvent "a" 3, signalEvent "b" "NOISE"]⟩).2.2.map
    (fun c => (c.code, c.responses.map (fun x => (x.eventId, x.code))))) = some (200, [("a", 200), ("b", 460)]) := by decide +kernel

example : ((onEventMessage easyHandlers (fun _ => 50) [] noEvents ⟨.str "vtn1", .str "q", [venEvent "a" 3]⟩).2.2.map (fun c => c.code)) = some 452 := by
  decide +kernel

/-- **C77, refuted** for private names: the server accepts the name of a signal that begins with `x-`, the VEN answers the event with 460. -/
theorem c77_private_name_violated : ∃ (e : Event), (∀ s ∈ e.signals, signalNameOk s.signalName = true) ∧
    ((onEventMessage easyHandlers (fun _ => 50) [] noEvents ⟨.str "VTN1", .str "q", [e]⟩).2.2.map (fun c => c.responses.map (fun x => (x.eventId, x.code)))) =
      some [("e", 460)] :=
  ⟨signalEvent "e" "x-private", by decide +kernel, by decide +kernel⟩

/-- **C77, refuted** for the decision: an event with a signal that is not supported is answered with 460 and opted into. -/
theorem c77_opted_in_violated : ∃ (e : Event), (∃ s ∈ e.signals, signalNameOk s.signalName = false) ∧
    ((onEventMessage easyHandlers (fun _ => 50) [] noEvents ⟨.str "VTN1", .str "q", [e]⟩).2.2.map (fun c => c.responses.map (fun x => (x.code, x.optType)))) =
      some [(460, .str "optIn")] :=
  ⟨signalEvent "e" "NOISE", by decide +kernel, by decide +kernel⟩

end Openleadr
