import Verif.Spec.Payloads
/-!
The payload of oadrDistributeEvent, as the documentation of the library describes it, and what is received of it.
-/
namespace Openleadr

/-- An interval of a signal; `number` is what is sent, an integer or float, and `value` the float that is received. -/
structure IntervalP where
  start : Option Int
  duration : Option Int
  number : Value
  value : String

def IntervalP.dict (r : IntervalP) : Dict :=
  entry? "dtstart" (date? r.start) ++ entry? "duration" (span? r.duration) ++ [("signal_payload", r.number)]

/-- As it is received: with its position. -/
def IntervalP.received (i : Nat) (r : IntervalP) : Dict :=
  entry? "dtstart" (date? r.start) ++ entry? "duration" (span? r.duration) ++ [("uid", .int i), ("signal_payload", .float r.value)]

structure IntervalP.Good (lib : Lib) (r : IntervalP) : Prop where
  start : ∀ d, r.start = some d → Datable d
  duration : ∀ d, r.duration = some d → Spans d
  number : AsFloat lib r.number r.value

/-- A list of dicts as it is received in an element of its own: `None` if it is empty. -/
def listed (l : List Dict) : Value := if l = [] then .none else .list (l.map .dict)

/-- A signal of an event; its targets are not sent. -/
structure SignalP where
  intervals : List IntervalP
  name : String
  type : String
  id : String
  measurement : Option MeasurementP
  current : Option (Value × String)
  targets : Option Value
  targetsByType : Option Value

def SignalP.dict (r : SignalP) : Dict :=
  [("intervals", .list ((r.intervals.map IntervalP.dict).map .dict)), ("signal_name", .str r.name), ("signal_type", .str r.type),
    ("signal_id", .str r.id)] ++ entry? "measurement" (r.measurement.map (fun m => .dict m.dict)) ++ entry? "current_value" (r.current.map (·.1)) ++
  entry? "targets" r.targets ++ entry? "targets_by_type" r.targetsByType

/-- The entries before and after the measurement, as they are received. -/
def SignalP.before (r : SignalP) : Dict :=
  [("intervals", listed (r.intervals.mapIdx IntervalP.received)), ("signal_name", .str r.name), ("signal_type", .str r.type), ("signal_id", .str r.id)]

def SignalP.after (r : SignalP) : Dict := entry? "current_value" (r.current.map (fun c => .float c.2))

/-- As it is received if a signal before it, or itself, has no measurement. -/
def SignalP.raw (r : SignalP) : Dict :=
  r.before ++ (match r.measurement with
    | some m => [(m.name, .dict m.raw)]
    | none => []) ++ r.after

/-- As it is received if it and all before it have measurements. -/
def SignalP.done (r : SignalP) : Option Dict :=
  r.measurement.map (fun m => r.before ++ r.after ++ [("measurement", .dict m.received)])

structure SignalP.Good (lib : Lib) (r : SignalP) : Prop where
  intervals : ∀ i ∈ r.intervals, i.Good lib
  name : Ordinary lib r.name
  type : Ordinary lib r.type
  id : Ordinary lib r.id
  measurement : ∀ m, r.measurement = some m → m.Good lib
  current : ∀ c, r.current = some c → AsFloat lib c.1 c.2

/-- The descriptor of an event. The priority must be there, but may be `None`. -/
structure DescriptorP where
  eventId : String
  modification : Int
  modified : Option Int
  reason : Option String
  priority : Option Int
  marketContext : String
  created : Int
  status : String
  test : Option Bool
  comment : Option String

/-- A boolean, if there is one. -/
def bool? (b : Option Bool) : Option Value := b.map .bool

def DescriptorP.dict (r : DescriptorP) : Dict :=
  [("event_id", .str r.eventId), ("modification_number", .int r.modification)] ++ entry? "modification_date_time" (date? r.modified) ++
  entry? "modification_reason" (text? r.reason) ++
  [("priority", (int? r.priority).getD .none), ("market_context", .str r.marketContext), ("created_date_time", .datetime r.created),
    ("event_status", .str r.status)] ++ entry? "test_event" (bool? r.test) ++ entry? "vtn_comment" (text? r.comment)

/-- As it is received: no priority instead of `None`. -/
def DescriptorP.received (r : DescriptorP) : Dict :=
  [("event_id", .str r.eventId), ("modification_number", .int r.modification)] ++ entry? "modification_date_time" (date? r.modified) ++
  entry? "modification_reason" (text? r.reason) ++ entry? "priority" (int? r.priority) ++
  [("market_context", .str r.marketContext), ("created_date_time", .datetime r.created), ("event_status", .str r.status)] ++
  entry? "test_event" (bool? r.test) ++ entry? "vtn_comment" (text? r.comment)

structure DescriptorP.Good (lib : Lib) (r : DescriptorP) : Prop where
  eventId : Ordinary lib r.eventId
  modified : ∀ d, r.modified = some d → Datable d
  reason : ∀ x, r.reason = some x → Ordinary lib x
  marketContext : Ordinary lib r.marketContext
  created : Datable r.created
  status : Ordinary lib r.status
  comment : ∀ x, r.comment = some x → Ordinary lib x

/-- The active period of an event. -/
structure ActiveP where
  start : Int
  duration : Int
  tolerance : Option Int
  notification : Option Int
  rampUp : Option Int
  recovery : Option Int

def ActiveP.dict (r : ActiveP) : Dict :=
  [("dtstart", .datetime r.start), ("duration", .timedelta r.duration)] ++
  entry? "tolerance" (r.tolerance.map (fun d => .dict [("startafter", .timedelta d)])) ++
  entry? "notification_period" (span? r.notification) ++ entry? "ramp_up_period" (span? r.rampUp) ++ entry? "recovery_period" (span? r.recovery)

/-- A duration that is sent if it is not zero. -/
def nonzero? (d : Option Int) : Option Int := d.filter (fun d => decide (d ≠ 0))

/-- As it is received: the tolerance is nested once more, the other periods have shorter names, and those of no length are not received. -/
def ActiveP.received (r : ActiveP) : Dict :=
  [("dtstart", .datetime r.start), ("duration", .timedelta r.duration)] ++
  entry? "tolerance" (r.tolerance.map (fun d => .dict [("tolerate", .dict [("startafter", .timedelta d)])])) ++
  entry? "notification" (span? (nonzero? r.notification)) ++ entry? "ramp_up" (span? (nonzero? r.rampUp)) ++
  entry? "recovery" (span? (nonzero? r.recovery))

structure ActiveP.Good (r : ActiveP) : Prop where
  start : Datable r.start
  duration : Spans r.duration
  tolerance : ∀ d, r.tolerance = some d → Spans d
  notification : ∀ d, r.notification = some d → Spans d
  rampUp : ∀ d, r.rampUp = some d → Spans d
  recovery : ∀ d, r.recovery = some d → Spans d

/-- A target of an event; `others` are the kinds that are not sent. -/
structure EventTargetP where
  groupId : Option String
  groupName : Option String
  resourceId : Option String
  venId : Option String
  partyId : Option String
  others : Dict

def EventTargetP.dict (r : EventTargetP) : Dict :=
  entry? "group_id" (text? r.groupId) ++ entry? "group_name" (text? r.groupName) ++ entry? "resource_id" (text? r.resourceId) ++
  entry? "ven_id" (text? r.venId) ++ entry? "party_id" (text? r.partyId) ++ r.others

/-- The kinds of targets that are sent, in the order in which they are received. -/
def targetKinds : List (String × (EventTargetP → Option String)) :=
  [("group_id", EventTargetP.groupId), ("group_name", EventTargetP.groupName), ("resource_id", EventTargetP.resourceId),
    ("ven_id", EventTargetP.venId), ("party_id", EventTargetP.partyId)]

structure EventTargetP.Good (lib : Lib) (r : EventTargetP) : Prop where
  texts : ∀ k ∈ targetKinds, ∀ x, k.2 r = some x → Ordinary lib x
  others : ∀ k ∈ ["emix_interfaces", "group_id", "group_name", "resource_id", "ven_id", "party_id"], Dict.get? r.others k = none

/-- The targets that are received: one for each entry, sorted by their kinds. -/
def targetsReceived (ts : List EventTargetP) : List Dict := targetKinds.flatMap (fun k => (ts.filterMap k.2).map (fun s => [(k.1, .str s)]))

/-- The grouping that is received. -/
def groupsReceived (ts : List EventTargetP) : Dict :=
  targetKinds.flatMap (fun k => if ts.filterMap k.2 = [] then [] else [(k.1, .list ((ts.filterMap k.2).map .str))])

/-- An event; if it has targets, their grouping is not sent. -/
structure EventP where
  descriptor : DescriptorP
  period : ActiveP
  signals : List SignalP
  targets : Option (List EventTargetP)
  targetsByType : Option Value
  response : String

def EventP.dict (r : EventP) : Dict :=
  [("event_descriptor", .dict r.descriptor.dict), ("active_period", .dict r.period.dict),
    ("event_signals", .list ((r.signals.map SignalP.dict).map .dict))] ++
  entry? "targets" (r.targets.map (fun l => .list ((l.map EventTargetP.dict).map .dict))) ++ entry? "targets_by_type" r.targetsByType ++
  [("response_required", .str r.response)]

/-- The entries with the targets as they are received. An empty grouping is not received if there are several events. -/
def EventP.targetEntries (several : Bool) (r : EventP) : Dict :=
  match r.targets with
  | none => []
  | some ts => [("targets", .list ((targetsReceived ts).map .dict))] ++
      (if several = true ∧ groupsReceived ts = [] then [] else [("targets_by_type", .dict (groupsReceived ts))])

/-- What is received inside of the event itself. -/
def EventP.inner (several : Bool) (r : EventP) : Dict :=
  [("event_descriptor", .dict r.descriptor.received), ("active_period", .dict r.period.received),
    ("event_signals", listed (upToFirst SignalP.raw SignalP.done r.signals))] ++ r.targetEntries several

def EventP.received (several : Bool) (r : EventP) : Dict := r.inner several ++ [("response_required", .str r.response)]

structure EventP.Good (lib : Lib) (r : EventP) : Prop where
  descriptor : r.descriptor.Good lib
  period : r.period.Good
  signals : ∀ s ∈ r.signals, s.Good lib
  targets : ∀ l, r.targets = some l → ∀ t ∈ l, t.Good lib
  response : Ordinary lib r.response

/-- Events that are distributed. -/
structure DistributeEventP where
  response : Option ResponseP
  requestId : String
  vtnId : String
  events : List EventP

def DistributeEventP.dict (r : DistributeEventP) : Dict :=
  entry? "response" (r.response.map (fun x => .dict x.dict)) ++
  [("request_id", .str r.requestId), ("vtn_id", .str r.vtnId), ("events", .list ((r.events.map EventP.dict).map .dict))]

/-- As they are received: no events instead of an empty list. -/
def DistributeEventP.received (r : DistributeEventP) : Dict :=
  entry? "response" (r.response.map (fun x => .dict x.dict)) ++ [("request_id", .str r.requestId), ("vtn_id", .str r.vtnId)] ++
  entry? "events" (dicts? (r.events.map (EventP.received (decide (2 ≤ r.events.length)))))

structure DistributeEventP.Good (lib : Lib) (r : DistributeEventP) : Prop where
  response : ∀ x, r.response = some x → x.Good lib
  requestId : Ordinary lib r.requestId
  vtnId : Ordinary lib r.vtnId
  events : ∀ e ∈ r.events, e.Good lib

end Openleadr
