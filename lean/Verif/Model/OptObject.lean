import Verif.Model.Client
/-!
Opts with everything their users say: the arguments of `create_opt` (openleadr/client.py:581-583), `Opt(…)` with its `__post_init__`
(openleadr/objects.py:326-380) and the payload of the message that is made of it (client.py:627-632).

Targets are dicts here; a `Target` object is the dict of its members (`asdict`, objects.py:365-366), in which members that are not set are
`None`. Schedules are lists of periods in microseconds; `Vavailability` objects and the dicts of their members are the same.
-/
namespace Openleadr

/-- openleadr/enums.py:148-170 `SIGNAL_TARGET_MRID`: the values. -/
def signalTargets : List String :=
  ["Thermostat", "Strip_Heater", "Baseboard_Heater", "Water_Heater", "Pool_Pump", "Sauna", "Hot_tub", "Smart_Appliance", "Irrigation_Pump",
   "Managed_Commercial_and_Industrial_Loads", "Simple_Residential_On_Off_Loads", "Exterior_Lighting", "Interior_Lighting", "Electric_Vehicle",
   "Generation_Systems", "Load_Control_Switch", "Smart_Inverter", "EVSE", "RESU", "Energy_Management_System", "Smart_Energy_Module", "Storage"]

/-- openleadr/objects.py:347: no target of the signal, a known one, or one of the user's own. -/
def signalTargetOk (t : Option String) : Bool :=
  match t with
  | none => true
  | some s => signalTargets.contains s || ['x', '-'].isPrefixOf s.toList

/-- The arguments of `create_opt` (client.py:581-583); `none` for an argument that is `None` or not given. -/
structure OptCall where
  optType : String
  optReason : String
  targets : Option Targets
  vavailability : Option (List (Int × Int)) := none
  eventId : Option String := none
  modificationNumber : Option Int := none
  optId : Option String := none
  requestId : Option String := none
  marketContext : Option String := none
  signalTarget : Option String := none

/-- An `Opt` object (openleadr/objects.py:327-338). -/
structure OptObject where
  optType : String
  optReason : String
  optId : String
  created : Int
  eventId : Option String
  modificationNumber : Int
  vavailability : Option (List (Int × Int))
  targets : Targets
  targetsByType : TargetsByType
  marketContext : Option String
  signalTarget : Option String

/-- `a or b` for texts (client.py:612, 626). -/
def textOr (a : Option String) (b : String) : String :=
  match a with
  | some s => if s = "" then b else s
  | none => b

/-- client.py:604-623 and openleadr/objects.py:340-367: the opt, or `ValueError`. `create_opt` never gives a grouping of the targets, so that it is made from
    the list (362-367). -/
def newOpt (now : Int) (fresh : String) (a : OptCall) : Res OptObject :=
  if optTypes.contains a.optType = false then .error .valueError                              -- client.py:604, objects.py:341
  else if optReasons.contains a.optReason = false then .error .valueError                     -- client.py:607, objects.py:344
  else if signalTargetOk a.signalTarget = false then .error .valueError                       -- objects.py:347
  else if a.eventId = none ∧ a.vavailability = none then .error .valueError                   -- 350
  else if a.eventId ≠ none ∧ a.vavailability ≠ none then .error .valueError                   -- 353
  else
    match a.targets with
    | none => .error .valueError                                                              -- 361
    | some ts =>
      .ok { optType := a.optType, optReason := a.optReason, optId := textOr a.optId fresh, created := now, eventId := a.eventId,
            modificationNumber := a.modificationNumber.getD 0, vavailability := a.vavailability, targets := ts,
            targetsByType := groupTargetsByType ts, marketContext := a.marketContext, signalTarget := a.signalTarget }

/-- A text, or `None`. -/
def textEntry : Option String → Value
  | some s => .str s
  | none => .none

/-- A schedule as `asdict` makes it. -/
def scheduleEntry : Option (List (Int × Int)) → Value
  | some l => .dict [("components", .list (l.map (fun p => .dict [("dtstart", .datetime p.1), ("duration", .timedelta p.2)])))]
  | none => .none

/-- client.py:627-632: the payload, with `asdict(opt)`. -/
def OptObject.payload (requestId ven : String) (o : OptObject) : Dict :=
  [("request_id", .str requestId), ("ven_id", .str ven), ("opt_type", .str o.optType), ("opt_reason", .str o.optReason), ("opt_id", .str o.optId),
   ("created_date_time", .datetime o.created), ("event_id", textEntry o.eventId), ("modification_number", .int o.modificationNumber),
   ("vavailability", scheduleEntry o.vavailability), ("targets", .list (o.targets.map .dict)), ("targets_by_type", .dict o.targetsByType.toDict),
   ("market_context", textEntry o.marketContext), ("signal_target_mrid", textEntry o.signalTarget)]

end Openleadr
