import Verif.Model.Members
import Verif.Py.Sort
/-!
Events and their ordering. Events are records with the members the library looks at (an event may be a dict or an `objects.Event`;
`getmember`/`setmember` treat both alike, so the distinction only matters in outgoing preparation). Instants and durations are
microseconds. Datetimes without a time zone are not modelled (openleadr/utils.py:625-627 replaces them by the same instant in UTC).
-/
namespace Openleadr

/-- openleadr/enums.py:38-44 `EVENT_STATUS` -/
inductive Status
  | none | far | near | active | completed | cancelled
  deriving DecidableEq, Repr, Inhabited

/-- openleadr/objects.py:117-124 `ActivePeriod` -/
structure ActivePeriod where
  dtstart : Int
  duration : Int
  tolerance : Option Int := Option.none
  notification : Option Int := Option.none
  rampUp : Option Int := Option.none
  recovery : Option Int := Option.none
  deriving DecidableEq, Repr, Inhabited

/-- openleadr/objects.py:127-132 `Interval`; the payload is a number that the library only compares with 0, 1, 2, 3. -/
structure Interval where
  dtstart : Int
  duration : Int
  payload : Value
  uid : Option Int := Option.none
  deriving DecidableEq, Repr, Inhabited

/-- openleadr/objects.py:165-173 `EventSignal`. `measurement` is the name of the signal's measurement with its namespace, if any. -/
structure Signal where
  intervals : List Interval
  signalName : String
  signalType : String
  signalId : String
  currentValue : Option Value := Option.none
  targets : Option Targets := Option.none
  targetsByType : Option TargetsByType := Option.none
  measurement : Option (String × Option String) := Option.none
  deriving DecidableEq, Repr, Inhabited

/-- openleadr/objects.py:93-104 `EventDescriptor`. `priority = none` is a missing member. -/
structure Descriptor where
  eventId : String
  modificationNumber : Int
  marketContext : String
  status : Status
  created : Option Int := Option.none
  modified : Option Int := Option.none
  priority : Option Int := some 0
  testEvent : Bool := false
  vtnComment : Option String := Option.none
  deriving DecidableEq, Repr, Inhabited

/-- openleadr/objects.py:201-208 `Event` -/
structure Event where
  descriptor : Descriptor
  signals : List Signal
  targets : Option Targets := Option.none
  targetsByType : Option TargetsByType := Option.none
  activePeriod : ActivePeriod
  responseRequired : Option String := some "always"
  deriving DecidableEq, Repr, Inhabited

/-- `event['event_descriptor']['event_id']` -/
abbrev Event.id (e : Event) : String := e.descriptor.eventId
abbrev Event.modnum (e : Event) : Int := e.descriptor.modificationNumber
abbrev Event.status (e : Event) : Status := e.descriptor.status

/-- openleadr/utils.py:622-637 `determine_event_status`, at the instant `now`. -/
def determineStatus (now : Int) (p : ActivePeriod) : Status :=
  if now ≥ p.dtstart + p.duration ∧ p.duration > 0 then .completed        -- 628-630
  else if now ≥ p.dtstart then .active                                    -- 631-632
  else match p.rampUp with
    | some r => if now ≥ p.dtstart - r then .near else .far               -- 633-637
    | Option.none => .far                                                 -- 637

/-- `min` of a non-empty list of integers, first element and rest. -/
def minList (a : Int) : List Int → Int
  | [] => a
  | b :: l => minList (min a b) l
/-- `max` of a non-empty list. -/
def maxList (a : Int) : List Int → Int
  | [] => a
  | b :: l => maxList (max a b) l

/-- openleadr/utils.py:609-619 `get_active_period_from_intervals` on (start, duration) pairs; an empty list raises `IndexError`
    (610). The optional periods are not set. -/
def activePeriodOf (intervals : List (Int × Int)) : Res ActivePeriod :=
  match intervals with
  | [] => .error .indexError
  | i :: rest =>
    let start := minList i.1 (rest.map (fun j => j.1))                                            -- 612
    .ok { dtstart := start,
          duration := maxList (i.1 + i.2 - start) (rest.map (fun j => j.1 + j.2 - start)) }       -- 613-615

/-- openleadr/utils.py:806-811 the status refresh of one event in `order_events`; `now` and `now'` are the two readings of the clock. -/
def refresh (now now' : Int) (e : Event) : Event :=
  if e.status ≠ .cancelled then
    let s := determineStatus now e.activePeriod
    if e.status ≠ s then { e with descriptor := { e.descriptor with status := s, created := some now' } } else e
  else e

/-- The loop over the events, reading the clock anew for each event (`clock i` is the i-th reading). -/
def refreshAll (clock : Nat → Int) (i : Nat) : List Event → List Event
  | [] => []
  | e :: es => refresh (clock i) (clock (i + 1)) e :: refreshAll clock (i + 2) es

/-- openleadr/utils.py:796-801 `event_priority`; `none` is infinity. -/
def eventPriority (e : Event) : Option Int :=
  match e.descriptor.priority with
  | Option.none => Option.none
  | some p => if p = 0 then Option.none else some p

/-- `a <= b` for priorities with infinity. -/
def priorityLe : Option Int → Option Int → Bool
  | _, Option.none => true
  | Option.none, some _ => false
  | some a, some b => decide (a ≤ b)

/-- `list.sort(key=...)`: a stable sort. -/
def sortByPriority (l : List Event) : List Event := stableSort (fun a b => priorityLe (eventPriority a) (eventPriority b)) l
def sortByStart (l : List Event) : List Event := stableSort (fun a b => decide (a.activePeriod.dtstart ≤ b.activePeriod.dtstart)) l

/-- openleadr/utils.py:817-834 the ordering itself. -/
def arrange (l : List Event) : List Event :=
  sortByStart (sortByPriority (l.filter (fun e => decide (e.status = .active)))) ++
  sortByStart (l.filter (fun e => decide (e.status ≠ .active)))

/-- Python's `xs[a:b]` for non-negative bounds. -/
def slice (l : List α) (a b : Nat) : List α := (l.drop a).take (b - a)

/-- openleadr/utils.py:835-837: the window is taken only when both numbers are given and not zero. -/
def window (l : List Event) (limit offset : Option Nat) : List Event :=
  match limit, offset with
  | some lim, some off => if lim ≠ 0 ∧ off ≠ 0 then slice l off (off + lim) else l
  | _, _ => l

/-- openleadr/utils.py:789-837 `order_events` on a list. The events are changed in place, so the result is the list of the caller after
    the call and the returned list. With exactly one event the returned list is the list of the caller itself (813-815), which is visible
    to callers that change it afterwards: `aliased`. -/
structure Ordered where
  stored : List Event
  result : List Event
  aliased : Bool
  deriving DecidableEq, Repr

def orderEvents (clock : Nat → Int) (events : List Event) (limit offset : Option Nat) : Ordered :=
  let l := refreshAll clock 0 events
  if l.length = 1 then { stored := l, result := l, aliased := true }
  else { stored := l, result := window (arrange l) limit offset, aliased := false }

end Openleadr
