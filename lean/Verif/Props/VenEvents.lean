import Verif.Lemmas.VenAnswers
import Verif.Props.Events
/-!
C44–C48: the events of the VEN.
-/
namespace Openleadr
open Spec

/-- The state of a new client (client.py:97-98). -/
def noEvents : VenState := ⟨[], []⟩

/-- How often the user's handlers were called with this revision. -/
def timesCalled (calls : List VenCall) (id : String) (n : Int) : Nat :=
  (calls.filter (fun c => decide (c.event.id = id ∧ c.event.modnum = n))).length

theorem timesCalled_eq (calls : List VenCall) (id : String) (n : Int) : timesCalled calls id n = (calledWith id calls).count n := by
  unfold timesCalled calledWith callsOf
  induction calls with
  | nil => rfl
  | cons c l ih =>
    by_cases h1 : c.event.id = id
    · by_cases h2 : c.event.modnum = n
      · simp only [List.filter_cons, h1, h2, and_self, decide_true, if_true, List.length_cons, List.map_cons, List.count_cons, ih]
        simp
      · simp only [List.filter_cons, h1, h2, and_false, decide_true, decide_false, if_true, Bool.false_eq_true, if_false, List.map_cons,
          List.count_cons, ih]
        simp [h2]
    · simp only [List.filter_cons, h1, false_and, decide_false, Bool.false_eq_true, if_false, ih]

theorem count_le_one (l : List Int) (h : l.Pairwise (· < ·)) (n : Int) : l.count n ≤ 1 := by
  have hn : l.Nodup := h.imp (fun h => Int.ne_of_lt h)
  exact List.nodup_iff_count.mp hn n

/-- The revisions of an event arrive in the order of their modification numbers. -/
def InOrder (ops : List VenOp) (id : String) : Prop := (revisions id (delivered ops)).Pairwise (· ≤ ·)

/-- **C44**, at most once (partial: revisions arrive in order, and the event is not forgotten by a clean-up). Whatever the handlers do and
    whatever else is delivered, a revision reaches a handler at most once; the first one reaches `on_event` and the later ones
    `on_update_event`, in order. -/
theorem c44_at_most_once_partial (h : VenHandlers) (ops : List VenOp) (id : String) (horder : InOrder ops id)
    (hstays : ∀ e ∈ delivered ops, e.id = id → Stays ops e) :
    (∀ n, timesCalled (runVen h noEvents [] ops).2.1 id n ≤ 1) ∧
    ((runVen h noEvents [] ops).2.1.filter (fun c => decide (c.event.id = id)) = [] ∨
      ∃ first rest, (runVen h noEvents [] ops).2.1.filter (fun c => decide (c.event.id = id)) = .onEvent first :: rest.map .onUpdate ∧
        (first :: rest).Pairwise (fun a b => a.modnum < b.modnum)) := by
  have hi := once_run id ops h ops noEvents [] (fun _ h => h) (Or.inl ⟨rfl, rfl⟩) hstays horder (by intro r hr; simp [noEvents, ofId] at hr)
  refine ⟨fun n => ?_, ?_⟩
  · rw [timesCalled_eq]; exact count_le_one _ (once_pairwise _ _ _ _ hi) n
  · rcases hi with ⟨-, h2⟩ | ⟨r, first, rest, -, -, h2, h3, -⟩
    · exact Or.inl h2
    · exact Or.inr ⟨first, rest, h2, List.pairwise_map.mp h3⟩

/-- **C44** (partial: the handlers do not raise, the sender is not given in lower case, no delivered event is already over or cancelled,
    revisions arrive in order, and the event is not forgotten by a clean-up): every delivered revision reaches a handler exactly once. -/
theorem c44_exactly_once_partial (h : VenHandlers) (ht : h.Total) (ops : List VenOp) (id : String) (horder : InOrder ops id)
    (hgood : ∀ op ∈ ops, GoodSender op) (hrun : ∀ e ∈ delivered ops, Running e)
    (hstays : ∀ e ∈ delivered ops, e.id = id → Stays ops e) (e : Event) (he : e ∈ delivered ops) (hid : e.id = id) :
    timesCalled (runVen h noEvents [] ops).2.1 id e.modnum = 1 := by
  have h1 := (c44_at_most_once_partial h ops id horder hstays).1 e.modnum
  have h2 := (answers_run id ops h ht ops noEvents [] [] (fun _ => .none) (fun _ h => h) hgood (by intro r hr; simp [noEvents] at hr) hrun
    (Or.inl ⟨rfl, rfl⟩) hstays horder (by intro r hr; simp [noEvents, ofId] at hr) (by intro r hr; simp [noEvents, ofId] at hr) (by simp)).1 e he hid
  rw [timesCalled_eq] at h1 ⊢
  have := List.count_pos_iff.mpr h2
  omega

/-- **C44**, the decision is repeated (partial, as above): all responses for one revision carry the same opt type. -/
theorem c44_same_answer_partial (h : VenHandlers) (ht : h.Total) (ops : List VenOp) (id : String) (horder : InOrder ops id)
    (hgood : ∀ op ∈ ops, GoodSender op) (hrun : ∀ e ∈ delivered ops, Running e)
    (hstays : ∀ e ∈ delivered ops, e.id = id → Stays ops e) (x y : VenResponse)
    (hx : x ∈ answersOf (runVen h noEvents [] ops).2.2) (hy : y ∈ answersOf (runVen h noEvents [] ops).2.2)
    (hxid : x.eventId = id) (hyid : y.eventId = id) (hm : x.modnum = y.modnum) : x.optType = y.optType := by
  obtain ⟨-, -, D, hD⟩ := answers_run id ops h ht ops noEvents [] [] (fun _ => .none) (fun _ h => h) hgood (by intro r hr; simp [noEvents] at hr) hrun
    (Or.inl ⟨rfl, rfl⟩) hstays horder (by intro r hr; simp [noEvents, ofId] at hr) (by intro r hr; simp [noEvents, ofId] at hr) (by simp)
  rw [hD x (by simpa using hx) hxid, hD y (by simpa using hy) hyid, hm]

/-- An event for the examples. -/
def venEvent (id : String) (n : Int) (st : Status := .far) : Event :=
  { descriptor := { eventId := id, modificationNumber := n, marketContext := "m", status := st },
    signals := [{ intervals := [], signalName := "SIMPLE", signalType := "level", signalId := "s" }],
    activePeriod := { dtstart := 100, duration := 10 } }

/-- Handlers for the examples: accept events, decline updates. -/
def easyHandlers : VenHandlers := ⟨fun _ _ => .ok (.str "optIn"), fun _ _ _ => .ok (.str "optOut")⟩

def eventsFrom (events : List Event) : VenOp := .message (fun _ => 0) ⟨.str "VTN1", .str "q", events⟩

/-- non-vacuity: three messages with two events, one of them updated, a clean-up and a log entry in between. -/
example : let ops := [eventsFrom [venEvent "a" 0, venEvent "b" 0], .statusLog (fun _ => 50), eventsFrom [venEvent "a" 0], .cleanup (fun _ => 50),
      eventsFrom [venEvent "a" 1, venEvent "b" 0]]
    InOrder ops "a" ∧ (∀ e ∈ delivered ops, Running e) ∧ (∀ e ∈ delivered ops, e.id = "a" → Stays ops e) ∧ (∀ op ∈ ops, GoodSender op) ∧
    (runVen easyHandlers noEvents [] ops).2.1 = [.onEvent (venEvent "a" 0), .onEvent (venEvent "b" 0), .onUpdate (venEvent "a" 1)] ∧
    (answersOf (runVen easyHandlers noEvents [] ops).2.2).map (fun x => (x.eventId, x.modnum, x.optType)) =
      [("a", 0, .str "optIn"), ("b", 0, .str "optIn"), ("a", 0, .str "optIn"), ("a", 1, .str "optOut"), ("b", 0, .str "optIn")] := by
  refine ⟨?_, ?_, ?_, ?_, by decide +kernel, by decide +kernel⟩
  · show List.Pairwise (· ≤ ·) (revisions "a" [venEvent "a" 0, venEvent "b" 0, venEvent "a" 0, venEvent "a" 1, venEvent "b" 0])
    decide +kernel
  · intro e he
    simp only [delivered, eventsFrom, List.cons_append, List.nil_append, List.mem_cons, List.not_mem_nil, or_false] at he
    rcases he with rfl | rfl | rfl | rfl | rfl <;> exact ⟨by decide, by decide⟩
  · intro e he hid
    simp only [delivered, eventsFrom, List.cons_append, List.nil_append, List.mem_cons, List.not_mem_nil, or_false] at he
    have hper : e.activePeriod = { dtstart := 100, duration := 10 } ∧ e.status ≠ .cancelled := by
      rcases he with rfl | rfl | rfl | rfl | rfl <;> exact ⟨rfl, by decide⟩
    refine ⟨hper.2, ?_⟩
    intro clock hc i
    simp only [eventsFrom, List.mem_cons, reduceCtorEq, VenOp.cleanup.injEq, List.not_mem_nil, or_false, false_or] at hc
    rw [hc, hper.1]; show determineStatus 50 _ ≠ _; decide
  · intro op hop clock m hm
    simp only [eventsFrom, List.mem_cons, List.not_mem_nil, or_false] at hop
    rcases hop with rfl | rfl | rfl | rfl | rfl <;> first | cases hm | skip
    all_goals exact ⟨"VTN1", rfl, by decide +kernel⟩

/-- Handlers that raise for the event "bad". -/
def raisingHandlers : VenHandlers :=
  ⟨fun _ e => if e.id = "bad" then .error .valueError else .ok (.str "optIn"), fun _ _ _ => .ok (.str "optOut")⟩

theorem poisoned_step (clock : Nat → Int) (calls : List VenCall) (q : Value) :
    onEventMessage raisingHandlers clock calls ⟨[venEvent "bad" 0], []⟩ ⟨.str "VTN1", q, [venEvent "bad" 0, venEvent "good" 0]⟩ =
      (⟨[venEvent "bad" 0], []⟩, calls, (onEventMessage raisingHandlers clock calls ⟨[venEvent "bad" 0], []⟩
        ⟨.str "VTN1", q, [venEvent "bad" 0, venEvent "good" 0]⟩).2.2) := by
  have h : resultsOf raisingHandlers calls ⟨[venEvent "bad" 0], []⟩ ⟨.str "VTN1", q, [venEvent "bad" 0, venEvent "good" 0]⟩ =
      (⟨[venEvent "bad" 0], []⟩, calls, false, [.str "optOut", .str "optOut"]) := by
    have hl : isLowerText "VTN1" = false := by decide +kernel
    simp [resultsOf, hl, decideAll, decideEvent, Dict.get?]
  have := onEventMessage_state raisingHandlers clock calls ⟨[venEvent "bad" 0], []⟩ ⟨.str "VTN1", q, [venEvent "bad" 0, venEvent "good" 0]⟩
  rw [h] at this
  simp only [] at this
  exact Prod.ext this.1 (Prod.ext this.2 rfl)

/-- **C44, refuted** when a handler raises: an event behind an event for which the handler raised never reaches the handler, however often the
    message is delivered. -/
theorem c44_never_reached_violated (n : Nat) (clock : Nat → Int) (q : Value) :
    timesCalled (runVen raisingHandlers noEvents [] (List.replicate n (.message clock ⟨.str "VTN1", q, [venEvent "bad" 0, venEvent "good" 0]⟩))).2.1
      "good" 0 = 0 := by
  have hpois : ∀ (n : Nat) (calls : List VenCall), (runVen raisingHandlers ⟨[venEvent "bad" 0], []⟩ calls
      (List.replicate n (.message clock ⟨.str "VTN1", q, [venEvent "bad" 0, venEvent "good" 0]⟩))).2.1 = calls := by
    intro n
    induction n with
    | zero => intro calls; rfl
    | succ n ih =>
      intro calls
      simp only [List.replicate_succ, runVen, venStep]
      rw [poisoned_step]
      exact ih calls
  cases n with
  | zero => rfl
  | succ n =>
    have hfirst : resultsOf raisingHandlers [] noEvents ⟨.str "VTN1", q, [venEvent "bad" 0, venEvent "good" 0]⟩ =
        (⟨[venEvent "bad" 0], []⟩, [.onEvent (venEvent "bad" 0)], false, [.str "optOut", .str "optOut"]) := by
      have hl : isLowerText "VTN1" = false := by decide +kernel
      simp [resultsOf, hl, decideAll, decideEvent, noEvents, raisingHandlers, venEvent]
    have hst := onEventMessage_state raisingHandlers clock [] noEvents ⟨.str "VTN1", q, [venEvent "bad" 0, venEvent "good" 0]⟩
    rw [hfirst] at hst
    simp only [] at hst
    simp only [List.replicate_succ, runVen, venStep]
    rw [hst.1, hst.2, hpois]
    decide +kernel

/-- **C44, refuted** for revisions out of order and after a clean-up: the same revision reaches the handler twice. -/
theorem c44_called_twice_violated :
    (timesCalled (runVen easyHandlers noEvents [] [eventsFrom [venEvent "a" 0], eventsFrom [venEvent "a" 1], eventsFrom [venEvent "a" 0]]).2.1 "a" 0 = 2) ∧
    (timesCalled (runVen easyHandlers noEvents [] [eventsFrom [venEvent "a" 0], .cleanup (fun _ => 200), eventsFrom [venEvent "a" 0]]).2.1 "a" 0 = 2) := by
  constructor <;> decide +kernel

/-! ### C45 -/

/-- Which events of a message get an entry: those that ask for it and are not over when looked at. -/
def wantsAnswer (clock : Nat → Int) (p : Event × Nat) : Bool :=
  decide (p.1.responseRequired = some "always" ∧
    ¬ (p.1.activePeriod.duration > 0 ∧ clock p.2 ≥ p.1.activePeriod.dtstart + p.1.activePeriod.duration))

theorem not_completed_iff (now : Int) (p : ActivePeriod) :
    determineStatus now p ≠ .completed ↔ ¬ (p.duration > 0 ∧ now ≥ p.dtstart + p.duration) := by
  refine not_congr ?_
  unfold determineStatus
  split
  · rename_i h; simp [h.1, h.2]
  · rename_i h
    have h' : ¬ (p.duration > 0 ∧ now ≥ p.dtstart + p.duration) := fun x => h ⟨x.2, x.1⟩
    refine ⟨fun hc => ?_, fun hc => absurd hc h'⟩
    exfalso
    split at hc
    · cases hc
    · split at hc
      · split at hc <;> cases hc
      · cases hc

theorem responsesFor_shape (clock : Nat → Int) (q : Value) (es : List Event) (vs : List Value) (i : Nat) (h : vs.length = es.length) :
    (responsesFor clock q i es vs).map (fun x => (x.eventId, x.modnum, x.requestId)) =
      ((es.zipIdx i).filter (wantsAnswer clock)).map (fun p => (p.1.id, p.1.modnum, q)) := by
  induction es generalizing vs i with
  | nil => simp [responsesFor]
  | cons e es ih =>
    cases vs with
    | nil => simp at h
    | cons v vs =>
      have hc : (e.responseRequired = some "always" ∧ determineStatus (clock i) e.activePeriod ≠ .completed) ↔ wantsAnswer clock (e, i) = true := by
        rw [not_completed_iff]; unfold wantsAnswer; rw [decide_eq_true_iff]
      have ih' := ih vs (i + 1) (by simpa using h)
      simp only [responsesFor, List.zipIdx_cons, List.filter_cons]
      by_cases hw : wantsAnswer clock (e, i) = true
      · rw [if_pos (hc.mpr hw), if_pos hw, List.map_cons, List.map_cons, ih']
      · rw [if_neg (fun h' => hw (hc.mp h')), if_neg hw, ih']

/-- **C45.** For every message, state and handlers: if some event wants an answer, one `oadrCreatedEvent` is sent with the request id of the
    message, and its entries are, in order, exactly one for each event that wants an answer, with its id, modification number and the request
    id; otherwise nothing is sent. -/
theorem c45_one_entry_each (h : VenHandlers) (clock : Nat → Int) (calls : List VenCall) (s : VenState) (m : EventMessage) :
    let wanted := m.events.zipIdx.filter (wantsAnswer clock)
    match (onEventMessage h clock calls s m).2.2 with
    | none => wanted = []
    | some c => wanted ≠ [] ∧ c.requestId = m.requestId ∧
        c.responses.map (fun x => (x.eventId, x.modnum, x.requestId)) = wanted.map (fun p => (p.1.id, p.1.modnum, m.requestId)) := by
  have hl := resultsOf_length h calls s m
  unfold onEventMessage
  cases hr : resultsOf h calls s m with
  | mk s' x =>
    obtain ⟨c, inv, r⟩ := x
    rw [hr] at hl
    have hs := responsesFor_shape clock m.requestId m.events r 0 hl
    cases hresp : responsesFor clock m.requestId 0 m.events r with
    | nil =>
      rw [hresp] at hs
      simp only [hresp]
      simpa using hs.symm
    | cons y ys =>
      rw [hresp] at hs
      simp only [hresp]
      refine ⟨?_, trivial, hs⟩
      intro h0
      rw [h0] at hs; simp at hs

/-- non-vacuity: of three events the second is over and the third asks for no answer. -/
example : let over : Event := { venEvent "b" 0 with activePeriod := { dtstart := 1, duration := 2 } }
    let quiet : Event := { venEvent "c" 0 with responseRequired := some "never" }
    ((onEventMessage easyHandlers (fun _ => 50) [] noEvents ⟨.str "VTN1", .str "q", [venEvent "a" 3, over, quiet]⟩).2.2.map
      (fun c => c.responses.map (fun x => (x.eventId, x.modnum, x.requestId)))) = some [("a", 3, .str "q")] := by decide +kernel

/-! ### C46 -/

/-- A decision is justified: the remembered one for a revision the VEN has already, the one `on_update_event` returned for another revision,
    the one `on_event` returned for an unknown event. -/
def Justified (h : VenHandlers) (s : VenState) (e : Event) (v : Value) : Prop :=
  match s.received.find? (fun r => decide (r.id = e.id)) with
  | some r => if r.modnum = e.modnum then Dict.get? s.responded e.id = some v else ∃ calls responded, h.onUpdate calls responded e = .ok v
  | none => ∃ calls, h.onEvent calls e = .ok v

/-- The calls that are due for a message. -/
def dueCalls (s : VenState) (es : List Event) : List VenCall :=
  es.filterMap (fun e =>
    match s.received.find? (fun r => decide (r.id = e.id)) with
    | some r => if r.modnum = e.modnum then none else some (.onUpdate e)
    | none => some (.onEvent e))

/-- The message has no event twice. -/
def Distinct (es : List Event) : Prop := es.Pairwise (fun a b => a.id ≠ b.id)

/-- The decision for every revision the VEN has already is remembered. -/
def Remembered (s : VenState) (es : List Event) : Prop :=
  ∀ e ∈ es, ∀ r, s.received.find? (fun r => decide (r.id = e.id)) = some r → r.modnum = e.modnum →
    ∃ v, Dict.get? s.responded e.id = some v

theorem decideEvent_ofId_other (h : VenHandlers) (calls : List VenCall) (s : VenState) (e : Event) (id : String) (he : e.id ≠ id) :
    ofId id (decideEvent h calls s e).1.received = ofId id s.received := by
  unfold decideEvent
  cases hf : s.received.find? (fun r => decide (r.id = e.id)) with
  | none => simp only []; rw [ofId_append]; simp [ofId, he]
  | some r =>
    simp only []
    by_cases hmn : r.modnum = e.modnum
    · rw [if_pos hmn]; cases Dict.get? s.responded e.id <;> rfl
    · rw [if_neg hmn]
      show ofId id (dropFirst e.id s.received ++ [e]) = _
      rw [ofId_append, ofId_dropFirst_other _ _ _ (Ne.symm he)]; simp [ofId, he]

theorem decideEvent_responded (h : VenHandlers) (calls : List VenCall) (s : VenState) (e : Event) :
    (decideEvent h calls s e).1.responded = s.responded := by
  unfold decideEvent
  cases hf : s.received.find? (fun r => decide (r.id = e.id)) with
  | none => rfl
  | some r =>
    simp only []
    by_cases hmn : r.modnum = e.modnum
    · rw [if_pos hmn]; cases Dict.get? s.responded e.id <;> rfl
    · rw [if_neg hmn]

theorem remember_other (responded : List (String × Value)) (e : Event) (v : Value) (id : String) (h : e.id ≠ id) :
    Dict.get? (remember responded e v) id = Dict.get? responded id := by
  unfold remember
  split
  · exact Dict.get?_erase_other _ _ _ (Ne.symm h)
  · exact Dict.get?_set_other _ _ _ _ (Ne.symm h)

/-- What is known about an id is the same in two states. -/
def SameAbout (id : String) (s s' : VenState) : Prop :=
  ofId id s.received = ofId id s'.received ∧ Dict.get? s.responded id = Dict.get? s'.responded id

theorem decideEvent_justified (h : VenHandlers) (calls : List VenCall) (s : VenState) (e : Event) :
    match (decideEvent h calls s e).2.2 with
    | .ok v => Justified h s e v ∧ (decideEvent h calls s e).2.1 = calls ++ dueCalls s [e]
    | .error _ =>
        match s.received.find? (fun r => decide (r.id = e.id)) with
        | some r => if r.modnum = e.modnum then Dict.get? s.responded e.id = none else ∃ err, h.onUpdate calls s.responded e = .error err
        | none => ∃ err, h.onEvent calls e = .error err := by
  unfold decideEvent Justified dueCalls
  simp only [List.filterMap_cons, List.filterMap_nil]
  cases hf : s.received.find? (fun r => decide (r.id = e.id)) with
  | none =>
    cases hv : h.onEvent calls e with
    | ok v => exact ⟨⟨calls, hv⟩, rfl⟩
    | error err => exact ⟨err, rfl⟩
  | some r =>
    by_cases hmn : r.modnum = e.modnum
    · simp only [if_pos hmn]
      cases hg : Dict.get? s.responded e.id with
      | some v => exact ⟨rfl, by simp⟩
      | none => rfl
    · simp only [if_neg hmn]
      cases hv : h.onUpdate calls s.responded e with
      | ok v => exact ⟨⟨calls, _, hv⟩, trivial⟩
      | error err => exact ⟨err, rfl⟩

theorem justified_same (h : VenHandlers) (s s' : VenState) (e : Event) (v : Value) (hs : SameAbout e.id s s') :
    Justified h s e v ↔ Justified h s' e v := by
  unfold Justified
  simp only [find_ofId]
  rw [hs.1, hs.2]

theorem dueCalls_same (s s' : VenState) (es : List Event) (hs : ∀ e ∈ es, SameAbout e.id s s') : dueCalls s es = dueCalls s' es := by
  unfold dueCalls
  induction es with
  | nil => rfl
  | cons e es ih =>
    simp only [List.filterMap_cons, find_ofId] at ih ⊢
    rw [(hs e (by simp)).1, ih (fun x hx => hs x (by simp [hx]))]

/-- A message with distinct events whose known revisions are remembered, and handlers that do not raise. -/
theorem decideAll_justified (h : VenHandlers) (ht : h.Total) (es : List Event) (calls : List VenCall) (s : VenState) (hd : Distinct es)
    (hrem : Remembered s es) :
    ∃ s' vs, decideAll h calls s es = (s', calls ++ dueCalls s es, .ok vs) ∧ vs.length = es.length ∧ ∀ p ∈ es.zip vs, Justified h s p.1 p.2 := by
  induction es generalizing calls s with
  | nil => exact ⟨s, [], by simp [decideAll, dueCalls], rfl, by simp⟩
  | cons e es ih =>
    have hj := decideEvent_justified h calls s e
    have hresp := decideEvent_responded h calls s e
    have hofo : ∀ id, e.id ≠ id → ofId id (decideEvent h calls s e).1.received = ofId id s.received :=
      fun id hid => decideEvent_ofId_other h calls s e id hid
    cases hde : decideEvent h calls s e with
    | mk s1 x =>
      obtain ⟨c1, r1⟩ := x
      rw [hde] at hj hresp hofo
      simp only [] at hresp hofo
      cases r1 with
      | error err =>
        exfalso
        simp only [] at hj
        cases hr : s.received.find? (fun r => decide (r.id = e.id)) with
        | none =>
          obtain ⟨v, hv⟩ := ht.1 calls e
          rw [hr] at hj
          simp only [hv] at hj
          obtain ⟨_, hc⟩ := hj; cases hc
        | some r =>
          rw [hr] at hj
          simp only [] at hj
          by_cases hmn : r.modnum = e.modnum
          · rw [if_pos hmn] at hj
            obtain ⟨v, hv⟩ := hrem e (by simp) r hr hmn
            rw [hv] at hj; cases hj
          · rw [if_neg hmn] at hj
            obtain ⟨v, hv⟩ := ht.2 calls s.responded e
            rw [hv] at hj; obtain ⟨_, hc⟩ := hj; cases hc
      | ok v =>
        simp only [] at hj
        have hd' := List.pairwise_cons.mp hd
        have hsame : ∀ x ∈ es, SameAbout x.id s { s1 with responded := remember s1.responded e v } := by
          intro x hx
          have hne : e.id ≠ x.id := hd'.1 x hx
          exact ⟨(hofo x.id hne).symm, by simp only [remember_other _ _ _ _ hne, hresp]⟩
        have hrem' : Remembered { s1 with responded := remember s1.responded e v } es := by
          intro x hx r hr hmn
          rw [find_ofId, ← (hsame x hx).1, ← find_ofId] at hr
          rw [← (hsame x hx).2]
          exact hrem x (by simp [hx]) r hr hmn
        obtain ⟨s2, vs, hda, hlen, hjs⟩ := ih c1 { s1 with responded := remember s1.responded e v } hd'.2 hrem'
        refine ⟨s2, v :: vs, ?_, by simp [hlen], ?_⟩
        · simp only [decideAll, hde, hda]
          rw [hj.2, ← dueCalls_same s _ es hsame]
          have : dueCalls s (e :: es) = dueCalls s [e] ++ dueCalls s es := by
            unfold dueCalls
            rw [← List.filterMap_append]; rfl
          rw [this, List.append_assoc]
        · intro p hp
          rw [List.zip_cons_cons, List.mem_cons] at hp
          rcases hp with rfl | hp
          · exact hj.1
          · exact (justified_same h _ _ _ _ (hsame p.1 (List.of_mem_zip (show (p.1, p.2) ∈ _ from hp)).1)).mpr (hjs p hp)

/-- What is answered when the decision was `v`: the decision itself if it is an opt type, otherwise `optOut`. -/
def answerFor (v : Value) : Value := if v = .str "optIn" ∨ v = .str "optOut" then v else .str "optOut"

/-- **C46** (partial: the handlers do not raise, the sender is not in lower case, no event is twice in the message, and the decisions for
    known revisions are remembered). The handlers are called exactly for the events that are new or changed, in order; every entry carries the
    justified decision for its own event, or `optOut` if that decision is not an opt type. -/
theorem c46_decision_partial (h : VenHandlers) (ht : h.Total) (clock : Nat → Int) (calls : List VenCall) (s : VenState) (m : EventMessage)
    (t : String) (hvtn : m.vtnId = .str t) (hlow : isLowerText t = false) (hd : Distinct m.events) (hrem : Remembered s m.events) :
    (onEventMessage h clock calls s m).2.1 = calls ++ dueCalls s m.events ∧
    ∀ c, (onEventMessage h clock calls s m).2.2 = some c → c.code = 200 ∧ ∀ x ∈ c.responses, ∃ e ∈ m.events, ∃ v, e.id = x.eventId ∧
      e.modnum = x.modnum ∧ Justified h s e v ∧ x.optType = answerFor v := by
  obtain ⟨s', vs, hda, hlen, hj⟩ := decideAll_justified h ht m.events calls s hd hrem
  have hres : resultsOf h calls s m = (s', calls ++ dueCalls s m.events, false, fixResults m.events vs) := by
    unfold resultsOf; simp [hvtn, hlow, hda]
  refine ⟨by rw [(onEventMessage_state h clock calls s m).2, hres], ?_⟩
  intro c hc
  have hent := entries_onEventMessage h clock calls s m
  rw [hres] at hent
  rw [hc] at hent
  refine ⟨?_, ?_⟩
  · unfold onEventMessage at hc
    rw [hres] at hc
    simp only [Bool.false_eq_true, if_false] at hc
    split at hc
    · cases hc
    · simp only [Option.some.injEq] at hc; rw [← hc]
  · intro x hx
    have hx' : x ∈ responsesFor clock m.requestId 0 m.events (fixResults m.events vs) := by rw [← hent]; exact hx
    obtain ⟨p, hp, h1, h2, h3, -⟩ := responsesFor_mem clock m.requestId m.events vs 0 x hx'
    exact ⟨p.1, (List.of_mem_zip (show (p.1, p.2) ∈ _ from hp)).1, p.2, h1, h2, hj p hp, h3⟩

/-- non-vacuity: a new event, a changed one, a repeated one, and one for which the handler returns nonsense. -/
example : let h : VenHandlers := ⟨fun _ e => .ok (if e.id = "odd" then .int 5 else .str "optIn"), fun _ _ _ => .ok (.str "optOut")⟩
    let s : VenState := ⟨[venEvent "b" 0, venEvent "c" 0], [("b", .str "optIn"), ("c", .str "optIn")]⟩
    let m : EventMessage := ⟨.str "VTN1", .str "q", [venEvent "a" 0, venEvent "b" 1, venEvent "c" 0, venEvent "odd" 0]⟩
    ((onEventMessage h (fun _ => 0) [] s m).2.2.map (fun c => c.responses.map (fun x => (x.eventId, x.optType)))) =
      some [("a", .str "optIn"), ("b", .str "optOut"), ("c", .str "optIn"), ("odd", .str "optOut")] ∧
    (onEventMessage h (fun _ => 0) [] s m).2.1 = [.onEvent (venEvent "a" 0), .onUpdate (venEvent "b" 1), .onEvent (venEvent "odd" 0)] := by
  decide +kernel

/-- **C46, refuted** when a handler raises for one event: every event of the message is declined, including those the handler accepted. -/
theorem c46_exception_violated :
    ∃ (h : VenHandlers) (m : EventMessage), h.onEvent [] (venEvent "good" 0) = .ok (.str "optIn") ∧
      (onEventMessage h (fun _ => 0) [] noEvents m).2.1 = [.onEvent (venEvent "good" 0), .onEvent (venEvent "bad" 0)] ∧
      ((onEventMessage h (fun _ => 0) [] noEvents m).2.2.map (fun c => c.responses.map (fun x => (x.eventId, x.optType)))) =
        some [("good", .str "optOut"), ("bad", .str "optOut")] :=
  ⟨raisingHandlers, ⟨.str "VTN1", .str "q", [venEvent "good" 0, venEvent "bad" 0]⟩, by rfl, by decide +kernel, by decide +kernel⟩

theorem responsesFor_optOut (clock : Nat → Int) (q : Value) (es : List Event) (i : Nat) (x : VenResponse)
    (hx : x ∈ responsesFor clock q i es (es.map (fun _ => .str "optOut"))) : x.optType = .str "optOut" := by
  induction es generalizing i with
  | nil => simp [responsesFor] at hx
  | cons e es ih =>
    simp only [List.map_cons, responsesFor] at hx
    split at hx
    · rcases List.mem_cons.mp hx with rfl | hx
      · rfl
      · exact ih _ hx
    · exact ih _ hx

/-- **C46**, what happens then: as soon as the processing of one event raises, all entries of the message decline. -/
theorem c46_exception_declines_all (h : VenHandlers) (clock : Nat → Int) (calls : List VenCall) (s : VenState) (m : EventMessage) (err : Err)
    (hraise : (decideAll h calls s m.events).2.2 = .error err) :
    ∀ x ∈ entriesOf (onEventMessage h clock calls s m).2.2, x.optType = .str "optOut" := by
  intro x hx
  rw [entries_onEventMessage] at hx
  have : (resultsOf h calls s m).2.2.2 = m.events.map (fun _ => .str "optOut") := by
    unfold resultsOf
    split
    · split
      · rfl
      · split
        · rename_i hd; rw [hd] at hraise; cases hraise
        · rfl
    · rfl
  rw [this] at hx
  exact responsesFor_optOut _ _ _ _ _ hx

/-! ### C47 -/

/-- The VEN has the revision but no decision for it. -/
def Forgotten (s : VenState) (e : Event) : Prop :=
  ∃ r, s.received.find? (fun r => decide (r.id = e.id)) = some r ∧ r.modnum = e.modnum ∧ Dict.get? s.responded e.id = none

/-- If a known revision has no decision and the handlers never raise, processing the message raises. -/
theorem decideAll_forgotten (h : VenHandlers) (es : List Event) (calls : List VenCall) (s : VenState) (hd : Distinct es)
    (e : Event) (he : e ∈ es) (hf : Forgotten s e) : ∃ err, (decideAll h calls s es).2.2 = .error err := by
  induction es generalizing calls s with
  | nil => simp at he
  | cons x es ih =>
    have hresp := decideEvent_responded h calls s x
    have hofo : ∀ id, x.id ≠ id → ofId id (decideEvent h calls s x).1.received = ofId id s.received :=
      fun id hid => decideEvent_ofId_other h calls s x id hid
    have hj := decideEvent_justified h calls s x
    cases hde : decideEvent h calls s x with
    | mk s1 y =>
      obtain ⟨c1, r1⟩ := y
      rw [hde] at hj hresp hofo
      simp only [] at hresp hofo
      simp only [decideAll, hde]
      cases r1 with
      | error err => exact ⟨err, rfl⟩
      | ok v =>
        have hd' := List.pairwise_cons.mp hd
        rcases List.mem_cons.mp he with rfl | he
        · exfalso
          obtain ⟨r, hr, hmn, hnone⟩ := hf
          have h1 := hj.1
          unfold Justified at h1
          rw [hr] at h1
          simp only [if_pos hmn] at h1
          rw [hnone] at h1; cases h1
        · have hne := hd'.1 e he
          have hf' : Forgotten { s1 with responded := remember s1.responded x v } e := by
            obtain ⟨r, hr, hmn, hnone⟩ := hf
            refine ⟨r, ?_, hmn, ?_⟩
            · simp only [find_ofId] at hr ⊢; rw [hofo e.id hne]; exact hr
            · simp only [remember_other _ _ _ _ hne, hresp]; exact hnone
          obtain ⟨err, herr⟩ := ih c1 { s1 with responded := remember s1.responded x v } hd'.2 he hf'
          simp only []
          cases hd2 : decideAll h c1 { s1 with responded := remember s1.responded x v } es with
          | mk s2 z =>
            obtain ⟨c2, r2⟩ := z
            rw [hd2] at herr
            simp only [] at herr
            cases r2 with
            | error err' => exact ⟨err', rfl⟩
            | ok _ => cases herr

/-- **C47**, exactly when it goes wrong (handlers that do not raise, distinct events): processing a message raises, and so all its events are
    declined, if and only if it contains a revision the VEN has received but for which it has no decision any more. -/
theorem c47_declined_iff_forgotten_partial (h : VenHandlers) (ht : h.Total) (calls : List VenCall) (s : VenState) (es : List Event) (hd : Distinct es) :
    (∃ err, (decideAll h calls s es).2.2 = .error err) ↔ ∃ e ∈ es, Forgotten s e := by
  constructor
  · rintro ⟨err, herr⟩
    by_cases hr : Remembered s es
    · obtain ⟨s', vs, hda, -⟩ := decideAll_justified h ht es calls s hd hr
      rw [hda] at herr; cases herr
    · apply Classical.byContradiction
      intro hno
      apply hr
      intro e he r hfr hmn
      cases hg : Dict.get? s.responded e.id with
      | some v => exact ⟨v, rfl⟩
      | none => exact absurd ⟨e, he, r, hfr, hmn, hg⟩ hno
  · rintro ⟨e, he, hf⟩
    exact decideAll_forgotten h es calls s hd e he hf

/-- **C47, refuted.** An event is accepted, then cancelled (the update is answered by the handler), then the cancellation is delivered again
    together with another event: both are declined, and the handler is not even asked about the other event. -/
theorem c47_repeat_violated :
    let ops := [eventsFrom [venEvent "a" 0], eventsFrom [venEvent "a" 1 .cancelled], eventsFrom [venEvent "a" 1 .cancelled, venEvent "b" 0]]
    let h : VenHandlers := ⟨fun _ _ => .ok (.str "optIn"), fun _ _ _ => .ok (.str "optIn")⟩
    (answersOf (runVen h noEvents [] ops).2.2).map (fun x => (x.eventId, x.modnum, x.optType)) =
      [("a", 0, .str "optIn"), ("a", 1, .str "optIn"), ("a", 1, .str "optOut"), ("b", 0, .str "optOut")] ∧
    timesCalled (runVen h noEvents [] ops).2.1 "b" 0 = 0 := by
  constructor <;> decide +kernel

/-- The state after a cancellation was processed for a known event: the revision is known but its decision is gone. -/
theorem forgotten_after_end (h : VenHandlers) (calls : List VenCall) (s : VenState) (e : Event) (hend : e.status = .completed ∨ e.status = .cancelled)
    (hn : (Dict.keys s.responded).Nodup) (hhas : Dict.has s.responded e.id = true) (v : Value) (s' : VenState) (calls' : List VenCall)
    (hone : ∀ a b, ofId e.id s.received = a → a = b :: a.tail → a.tail = [])
    (hde : decideEvent h calls s e = (s', calls', .ok v)) : Forgotten { s' with responded := remember s'.responded e v } e := by
  have hresp := decideEvent_responded h calls s e
  rw [hde] at hresp
  simp only [] at hresp
  have hnone : Dict.get? (remember s'.responded e v) e.id = none := by
    unfold remember
    rw [hresp, if_pos ⟨hend, hhas⟩]
    exact Dict.get?_erase_self _ _ hn
  unfold decideEvent at hde
  rw [find_ofId] at hde
  cases hf : (ofId e.id s.received).head? with
  | none =>
    rw [hf] at hde
    simp only [Prod.mk.injEq] at hde
    refine ⟨e, ?_, rfl, hnone⟩
    have : ofId e.id s.received = [] := List.head?_eq_none_iff.mp hf
    rw [find_ofId, ← hde.1]
    show (ofId e.id (s.received ++ [e])).head? = _
    rw [ofId_append, this]; simp [ofId]
  | some r =>
    rw [hf] at hde
    simp only [] at hde
    by_cases hmn : r.modnum = e.modnum
    · rw [if_pos hmn] at hde
      refine ⟨r, ?_, hmn, hnone⟩
      cases hg : Dict.get? s.responded e.id with
      | none => rw [hg] at hde; simp at hde
      | some w =>
        rw [hg] at hde
        simp only [Prod.mk.injEq] at hde
        rw [find_ofId, ← hde.1]; exact hf
    · rw [if_neg hmn] at hde
      simp only [Prod.mk.injEq] at hde
      refine ⟨e, ?_, rfl, hnone⟩
      rw [find_ofId, ← hde.1]
      show (ofId e.id (dropFirst e.id s.received ++ [e])).head? = _
      rw [ofId_append, ofId_dropFirst_self]
      have ht : (ofId e.id s.received).tail = [] := by
        refine hone _ r rfl ?_
        cases hl : ofId e.id s.received with
        | nil => rw [hl] at hf; simp at hf
        | cons a t => rw [hl] at hf; simp only [List.head?_cons, Option.some.injEq] at hf; rw [hf]; rfl
      rw [ht]; simp [ofId]

/-- **C47, refuted** in general: whenever an ended event for which a decision is remembered has been processed, every further message that
    contains this revision raises, so everything in it is declined. -/
theorem c47_always_declined_violated (h : VenHandlers) (calls : List VenCall) (s : VenState) (e : Event) (hend : e.status = .completed ∨ e.status = .cancelled)
    (hn : (Dict.keys s.responded).Nodup) (hhas : Dict.has s.responded e.id = true) (hone : (ofId e.id s.received).length ≤ 1)
    (s1 : VenState) (calls1 : List VenCall) (v : Value) (hfirst : decideAll h calls s [e] = (s1, calls1, .ok [v]))
    (clock : Nat → Int) (m : EventMessage) (hm : e ∈ m.events) (hd : Distinct m.events) :
    ∀ x ∈ entriesOf (onEventMessage h clock calls1 s1 m).2.2, x.optType = .str "optOut" := by
  simp only [decideAll] at hfirst
  cases hde : decideEvent h calls s e with
  | mk s' y =>
    obtain ⟨c', r'⟩ := y
    rw [hde] at hfirst
    cases r' with
    | error err => simp at hfirst
    | ok w =>
      simp only [Prod.mk.injEq, Except.ok.injEq, List.cons.injEq, and_true] at hfirst
      obtain ⟨rfl, rfl, rfl⟩ := hfirst
      have hf := forgotten_after_end h calls s e hend hn hhas w s' c'
        (by intro a b ha hb
            rw [← ha] at hb ⊢
            cases hl : ofId e.id s.received with
            | nil => rfl
            | cons z t => rw [hl] at hone; simp only [List.length_cons] at hone; simpa using hone) hde
      obtain ⟨err, herr⟩ := decideAll_forgotten h m.events c' { s' with responded := remember s'.responded e w } hd e hm hf
      exact c46_exception_declines_all h clock _ _ m err herr

/-- non-vacuity of the above: the hypotheses hold for a cancelled event that was accepted before. -/
example : let s : VenState := ⟨[venEvent "a" 0], [("a", .str "optIn")]⟩
    Dict.has s.responded "a" = true ∧ (ofId "a" s.received).length ≤ 1 ∧
    (decideAll easyHandlers [] s [venEvent "a" 1 .cancelled]).2.2 = .ok [.str "optOut"] := by decide +kernel

/-! ### C48 -/

/-- **C48.** With the clock at `now`, the clean-up keeps, in order, exactly the events that are neither cancelled nor over. -/
theorem c48_keeps_exactly (now : Int) (l : List Event) :
    cleanup (fun _ => now) l = l.filter (fun e => decide (e.status ≠ .cancelled ∧
      ¬ (e.activePeriod.duration > 0 ∧ now ≥ e.activePeriod.dtstart + e.activePeriod.duration))) := by
  unfold cleanup
  rw [cleanupFrom_eq_filter, List.filter_reverse, List.reverse_reverse]
  refine List.filter_congr ?_
  intro e _
  rw [decide_eq_decide, not_or]
  exact and_congr Iff.rfl (not_completed_iff now e.activePeriod)

/-- **C48**, with a clock that moves while the events are looked at: the kept events are in order, and an event is only dropped if it is
    cancelled or was over at one of the readings. -/
theorem c48_drops_only_ended (clock : Nat → Int) (l : List Event) :
    (cleanup clock l).Sublist l ∧
    ∀ e ∈ l, e ∉ cleanup clock l → e.status = .cancelled ∨ ∃ i, StatusAt e.activePeriod (clock i) .completed := by
  refine ⟨cleanup_sublist clock l, ?_⟩
  intro e he hnot
  apply Classical.byContradiction
  intro hno
  rw [not_or] at hno
  have hk := cleanup_keeps clock (fun x => decide (x = e)) l (by
    intro x hx hxe
    obtain rfl : x = e := by simpa using hxe
    refine ⟨hno.1, fun i hc => hno.2 ⟨i, ?_⟩⟩
    exact (c16_status_by_clock _ _ _).mpr hc.symm)
  have : e ∈ l.filter (fun x => decide (x = e)) := List.mem_filter.mpr ⟨he, by simp⟩
  rw [← hk] at this
  exact hnot (List.mem_filter.mp this).1

/-- **C48.** Cleaning up again, at the same or a later instant, is the same as cleaning up once at that instant. -/
theorem c48_again (now later : Int) (h : now ≤ later) (l : List Event) :
    cleanup (fun _ => later) (cleanup (fun _ => now) l) = cleanup (fun _ => later) l := by
  rw [c48_keeps_exactly, c48_keeps_exactly, c48_keeps_exactly, List.filter_filter]
  refine List.filter_congr ?_
  intro e _
  rw [← Bool.decide_and, decide_eq_decide]
  constructor
  · exact fun h => h.1
  · intro hx
    refine ⟨hx, hx.1, fun hc => hx.2 ⟨hc.1, Int.le_trans hc.2 h⟩⟩

/-- non-vacuity -/
example : cleanup (fun _ => 50) [venEvent "a" 0, venEvent "b" 0 .cancelled, { venEvent "c" 0 with activePeriod := { dtstart := 1, duration := 2 } },
    { venEvent "d" 0 with activePeriod := { dtstart := 1, duration := 0 } }] =
      [venEvent "a" 0, { venEvent "d" 0 with activePeriod := { dtstart := 1, duration := 0 } }] := by decide +kernel

end Openleadr
