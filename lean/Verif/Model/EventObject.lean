import Verif.Model.Server
/-!
Event objects as the user makes them: `EventDescriptor(…)`, `EventSignal(…)` and `Event(…)` with their `__post_init__`
(openleadr/objects.py:93-235), before they are given to `add_raw_event`.

Times are microseconds on the clock (naive times and time zones: Model/Events), intervals given as dicts or as `Interval` objects are the
same here.
-/
namespace Openleadr

/-- The arguments of `EventDescriptor` (openleadr/objects.py:94-104), as far as `__post_init__` looks at them; `none` for an argument that
    is `None` or not given. -/
structure DescriptorArgs where
  eventId : String
  modificationNumber : Option Int
  marketContext : String
  status : Status
  created : Option Int := none
  modified : Option Int := none
  priority : Option Int := some 0
  testEvent : Bool := false
  vtnComment : Option String := none
  deriving DecidableEq, Repr

/-- openleadr/objects.py:106-112 `EventDescriptor.__post_init__`; `now` and `now'` are the two readings of the clock. -/
def newDescriptor (now now' : Int) (a : DescriptorArgs) : Descriptor :=
  { eventId := a.eventId, marketContext := a.marketContext, status := a.status, priority := a.priority, testEvent := a.testEvent,
    vtnComment := a.vtnComment,
    modified := some (a.modified.getD now),                     -- 107-108
    created := some (a.created.getD now'),                      -- 109-110
    modificationNumber := a.modificationNumber.getD 0 }         -- 111-112

/-- openleadr/objects.py:175-198 `EventSignal.__post_init__`: the checks, and the list of targets made from the grouping (190-191). The
    grouping made for the check (184-188) is a local variable and not kept. -/
def newSignal (sig : Signal) : Res Signal :=
  match signalChecks sig with
  | .error e => .error e
  | .ok () =>
    match sig.targets, sig.targetsByType with
    | none, some g => .ok { sig with targets := some (ungroupTargetsByType g.toDict) }
    | _, _ => .ok sig

/-- openleadr/objects.py:212-219: the period of an event made without one, over the intervals of all signals together; `min` of an empty
    list raises `ValueError`. -/
def periodOfSignals (signals : List Signal) : Res ActivePeriod :=
  match signals.flatMap (fun s => s.intervals) with
  | [] => .error .valueError
  | i :: rest =>
    let start := minList i.dtstart (rest.map (fun j => j.dtstart))
    .ok { dtstart := start, duration := maxList (i.dtstart + i.duration) (rest.map (fun j => j.dtstart + j.duration)) - start }

/-- The arguments of `Event` (openleadr/objects.py:203-208); the descriptor and the signals have been made before. -/
structure EventArgs where
  descriptor : Descriptor
  signals : List Signal
  targets : Option Targets := none
  targetsByType : Option TargetsByType := none
  activePeriod : Option ActivePeriod := none
  responseRequired : String := "always"
  deriving DecidableEq, Repr

/-- openleadr/objects.py:211-219: the given period, or the one over all intervals. -/
def givenPeriod (a : EventArgs) : Res ActivePeriod :=
  match a.activePeriod with
  | some p => .ok p
  | none => periodOfSignals a.signals

/-- openleadr/objects.py:210-235 `Event.__post_init__` at the instant `now`: the period, the targets, the status. -/
def newEvent (now : Int) (a : EventArgs) : Res Event :=
  match givenPeriod a with                                                            -- 211-219
  | .error e => .error e
  | .ok period =>
    match eventTargets a.targets a.targetsByType with                                 -- 220-233
    | .error e => .error e
    | .ok ts =>
      .ok { descriptor := { a.descriptor with status := determineStatus now period }, -- 235
            signals := a.signals, targets := some ts.1, targetsByType := some ts.2, activePeriod := period,
            responseRequired := some a.responseRequired }

end Openleadr
