import Verif.Model.Duration
/-! What is said about outgoing event messages. -/
namespace Openleadr

/-- Two lists of the same length, related element by element. -/
def Each (R : α → β → Prop) : List α → List β → Prop
  | [], [] => True
  | x :: xs, y :: ys => R x y ∧ Each R xs ys
  | _, _ => False

/-- The entry of a dict, `None` if there is none. -/
def field (v : Value) (k : String) : Value :=
  match v with
  | .dict d => (Dict.get? d k).getD .none
  | _ => .none

/-- The elements of a list or tuple. -/
def kids : Value → List Value
  | .list l => l
  | .tuple l => l
  | _ => []

/-- The duration of an interval: a duration, or a text that reads as one. -/
def spanOf (i : Value) : Option Int :=
  match field i "duration" with
  | .timedelta t => some t
  | .str s => (parseDuration s.toList).toOption
  | _ => none

/-- The durations of intervals added up. -/
def spans : List Value → Option Int
  | [] => some 0
  | i :: l => match spanOf i, spans l with
    | some a, some b => some (a + b)
    | _, _ => none

/-- The total duration of the intervals of a signal. -/
def totalOf (signal : Value) : Option Int := spans (kids (field signal "intervals"))

/-- The numbers 0, 1, 2 and 3, as whole numbers, floats and truth values. -/
def simpleLevels : List Value :=
  [.int 0, .int 1, .int 2, .int 3, .float "0.0", .float "-0.0", .float "1.0", .float "2.0", .float "3.0", .bool false, .bool true]

/-- The number 0. -/
def zeros : List Value := [.int 0, .float "0.0", .float "-0.0", .bool false]

/-- The statuses of events (openleadr/enums.py:38-44). -/
def eventStatuses : List String := ["none", "far", "near", "active", "completed", "cancelled"]

/-- The rules for an event that is sent. -/
structure GoodEvent (e : Value) : Prop where
  duration : ∀ s ∈ kids (field e "event_signals"), ∃ t, totalOf s = some t ∧ field (field e "active_period") "duration" = .timedelta t
  levels : ∀ s ∈ kids (field e "event_signals"), field s "signal_name" = .str "SIMPLE" →
    ∀ i ∈ kids (field s "intervals"), field i "signal_payload" ∈ simpleLevels
  response : field e "response_required" = .str "never" ∨ field e "response_required" = .str "always"
  created : field (field e "event_descriptor") "created_date_time" ≠ .none

/-- Two events with the same content, apart from what preparation may correct or add. -/
structure SameEvent (e e' : Value) : Prop where
  entries : ∀ k, k ∉ ["active_period", "event_signals", "response_required", "event_descriptor", "targets"] → field e' k = field e k
  period : ∀ k, k ≠ "duration" → field (field e' "active_period") k = field (field e "active_period") k
  descriptor : ∀ k, k ≠ "created_date_time" → field (field e' "event_descriptor") k = field (field e "event_descriptor") k
  signals : Each (fun s s' => (∀ k, k ∉ ["current_value", "measurement"] → field s' k = field s k) ∧
    (∀ k, k ≠ "ns" → field (field s' "measurement") k = field (field s "measurement") k))
    (kids (field e "event_signals")) (kids (field e' "event_signals"))

end Openleadr
