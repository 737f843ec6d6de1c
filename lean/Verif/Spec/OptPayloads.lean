import Verif.Spec.EventPayloads
/-!
The payload of oadrCreateOpt, as `OpenADRClient.create_opt` makes it, and what is received of it.
-/
namespace Openleadr

/-- An opt. The grouping of its targets is not sent; the number of the modification only together with the event. -/
structure OptP where
  optId : String
  optType : String
  reason : String
  marketContext : Option String
  venId : String
  availability : Option (List PeriodP)
  created : Int
  requestId : String
  eventId : Option String
  modification : Option Int
  targets : Option (List EventTargetP)
  targetsByType : Option Value
  signalTarget : Option String

def OptP.dict (r : OptP) : Dict :=
  [("opt_id", .str r.optId), ("opt_type", .str r.optType), ("opt_reason", .str r.reason)] ++ entry? "market_context" (text? r.marketContext) ++
  [("ven_id", .str r.venId)] ++
  entry? "vavailability" (r.availability.map (fun l => .dict [("components", .list ((l.map PeriodP.dict).map .dict))])) ++
  [("created_date_time", .datetime r.created), ("request_id", .str r.requestId)] ++ entry? "event_id" (text? r.eventId) ++
  entry? "modification_number" (int? r.modification) ++
  entry? "targets" (r.targets.map (fun l => .list ((l.map EventTargetP.dict).map .dict))) ++ entry? "targets_by_type" r.targetsByType ++
  entry? "signal_target_mrid" (text? r.signalTarget)

/-- The periods as they are received: nothing, a single period inside of `available`, or several that are nested once more. -/
def periodsReceived (l : List PeriodP) : Value :=
  match l with
  | [] => .none
  | [p] => .dict [("available", .dict p.dict)]
  | l => .dict [("available", .list ((l.map (fun p => [("properties", Value.dict p.dict)])).map .dict))]

/-- The targets as they were meant, none if there is no list. -/
def OptP.meantTargets (r : OptP) : List EventTargetP := r.targets.getD []

/-- As it is received, if it has at most one target. -/
def OptP.received (r : OptP) : Dict :=
  [("opt_id", .str r.optId), ("opt_type", .str r.optType), ("opt_reason", .str r.reason)] ++ entry? "market_context" (text? r.marketContext) ++
  [("ven_id", .str r.venId)] ++ entry? "vavailability" (r.availability.map (fun l => .dict [("components", periodsReceived l)])) ++
  [("created_date_time", .datetime r.created), ("request_id", .str r.requestId)] ++ entry? "event_id" (text? r.eventId) ++
  (if r.eventId = none then [] else entry? "modification_number" (int? r.modification)) ++
  [("targets", .list ((targetsReceived r.meantTargets).map .dict)), ("targets_by_type", .dict (groupsReceived r.meantTargets))] ++
  entry? "device_class" (r.signalTarget.map (fun s => .dict [("end_device_asset", .dict [("mrid", .str s)])]))

structure OptP.Good (lib : Lib) (r : OptP) : Prop where
  optId : Ordinary lib r.optId
  optType : Ordinary lib r.optType
  reason : Ordinary lib r.reason
  marketContext : ∀ x, r.marketContext = some x → Ordinary lib x
  venId : Ordinary lib r.venId
  availability : ∀ l, r.availability = some l → ∀ p ∈ l, p.Good
  created : Datable r.created
  requestId : Ordinary lib r.requestId
  eventId : ∀ x, r.eventId = some x → Ordinary lib x
  modification : r.eventId ≠ none → r.modification ≠ none
  targets : ∀ l, r.targets = some l → ∀ t ∈ l, t.Good lib
  signalTarget : ∀ x, r.signalTarget = some x → Ordinary lib x

end Openleadr
