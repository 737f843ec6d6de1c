import Verif.Model.Events
/-!
The event side of the VTN: openleadr/server.py (`add_event`, `add_raw_event`, `cancel_event`), openleadr/service/event_service.py and
openleadr/service/poll_service.py. Every function gives the new state, the calls of user code it made, and its result; the state is also
kept when the result is an exception. User code called in between (callbacks) may raise (`Env.raises`) but does not call back into the
server here; that is the subject of Model/Interleaving.
-/
namespace Openleadr

/-- A response callback: an `asyncio.Future` or a function (with or without the three required parameters). -/
inductive Callback
  | future (id : Nat)
  | func (id : Nat) (hasParams : Bool)
  deriving DecidableEq, Repr

/-- Calls of user code and completions of user futures. -/
inductive Effect
  | delivered (cb : Nat)                                  -- a delivery callback
  | responded (cb : Nat) (ven event opt : String)         -- a response callback
  | resolved (future : Nat) (opt : String)                -- `future.set_result(opt)`
  | onCreatedEvent (ven event opt : String)               -- the user's own handlers (external polling)
  | onPoll (ven : String)
  deriving DecidableEq, Repr

/-- What the user's own poll handler may return (openleadr/service/poll_service.py:128-140): nothing, a `(message type, payload)` tuple, a
    list of events, one event (dict or `Event`), or something else. -/
inductive PollResult
  | nothing
  | message (type : String) (payload : Value)
  | eventList (l : List Event)
  | event (e : Event)
  | other (v : Value)
  deriving DecidableEq, Repr

/-- User code: which calls raise, and what the handlers of external polling return. -/
structure Env where
  raises : Effect → Option Err
  onRequestEvent : String → Option (List Event)
  onPoll : String → PollResult

/-- The state of the event and poll services. -/
structure Server where
  external : Bool                                   -- `polling_method == 'external'` (event service)
  events : List (String × List Event)               -- event_service.py:29
  updated : List (String × Bool)                    -- poll_service.py:105 `events_updated`
  completedIds : List (String × List String)        -- event_service.py:30
  callbacks : List (String × Callback)              -- event_service.py:31 (the stored event itself is not used)
  delivery : List (String × Nat)                    -- event_service.py:33
  doneFutures : List Nat                            -- the futures that are done
  deriving DecidableEq, Repr

/-- A server just after start. -/
def Server.init : Server := ⟨false, [], [], [], [], [], []⟩

/-- The queue of a VEN. -/
def Server.queue (s : Server) (ven : String) : List Event := (Dict.get? s.events ven).getD []
/-- The pending-update flag of a VEN, `events_updated.get(ven_id)`. -/
def Server.flag (s : Server) (ven : String) : Bool := (Dict.get? s.updated ven).getD false
/-- The ids of the completed events of a VEN, `completed_event_ids.get(ven_id, [])`. -/
def Server.completedOf (s : Server) (ven : String) : List String := (Dict.get? s.completedIds ven).getD []

/-- openleadr/enums.py:47-58 -/
def signalTypes : List String :=
  ["delta", "level", "multiplier", "price", "priceMultiplier", "priceRelative", "setpoint", "x-loadControlCapacity",
   "x-loadControlLevelOffset", "x-loadControlPercentOffset", "x-loadControlSetpoint"]
/-- openleadr/enums.py:61-72 -/
def signalNames : List String :=
  ["SIMPLE", "simple", "ELECTRICITY_PRICE", "ENERGY_PRICE", "DEMAND_CHARGE", "BID_PRICE", "BID_LOAD", "BID_ENERGY", "CHARGE_STATE",
   "LOAD_DISPATCH", "LOAD_CONTROL"]

/-- `signal_name in SIGNAL_NAME.values or signal_name.startswith('x-')` -/
def signalNameOk (n : String) : Bool := signalNames.contains n || ['x', '-'].isPrefixOf n.toList

/-- The active period over all signals of an event (openleadr/server.py:298-300). -/
def eventPeriod (signals : List Signal) : Res ActivePeriod := do
  let ps ← signals.mapM (fun s => activePeriodOf (s.intervals.map (fun i => (i.dtstart, i.duration))))
  activePeriodOf (ps.map (fun p => (p.dtstart, p.duration)))

/-- openleadr/server.py:280-290: the check of the callback. -/
def callbackOk (event : Event) (callback : Option Callback) : Res Unit :=
  match event.responseRequired with
  | none => .error .keyError
  | some r =>
    if r = "always" then
      match callback with
      | some (.func _ false) => .error .valueError
      | _ => .ok ()
    else .ok ()

/-- `d.setdefault(k, v)` / "create if it does not exist yet" -/
def ensureKey (d : List (String × α)) (k : String) (v : α) : List (String × α) :=
  match Dict.get? d k with
  | some _ => d
  | none => Dict.set d k v

/-- `if value is not None: d[k] = value` -/
def setOpt (d : List (String × α)) (k : String) (v : Option α) : List (String × α) :=
  match v with
  | none => d
  | some v => Dict.set d k v

/-- openleadr/server.py:296-303: the members that are set when an event is added. -/
def withDefaults (event : Event) (period : ActivePeriod) : Event :=
  { event with activePeriod := period, descriptor := { event.descriptor with priority := some (event.descriptor.priority.getD 0) } }

/-- openleadr/server.py:271-317 `add_raw_event`. The event has a status and its descriptor has no member `active_period`
    (`getmember(event, 'event_descriptor.active_period', None)` is `None` for every `Event` and every well-formed event dict), so the
    active period is always computed from the intervals. The state is returned also in the error case: the queue of the VEN may have been
    created by then. -/
def addRawEvent (s : Server) (ven : String) (event : Event) (callback : Option Callback) (delivery : Option Nat) :
    Server × Res String :=
  match callbackOk event callback with
  | .error e => (s, .error e)
  | .ok _ =>
    let events := ensureKey s.events ven []                                                          -- 292-294
    match eventPeriod event.signals with
    | .error e => ({ s with events }, .error e)                                                      -- 297-300
    | .ok period =>
      ({ s with events := Dict.set events ven (s.queue ven ++ [withDefaults event period]),          -- 306
                updated := Dict.set s.updated ven true,                                              -- 307
                callbacks := setOpt s.callbacks event.id callback,                                   -- 310-311
                delivery := setOpt s.delivery event.id delivery },                                   -- 312-313
       .ok event.id)

/-- The arguments of `add_event` (openleadr/server.py:183-187). `eventId` is the given id or the generated one, `signalId` the generated
    signal id, `now` the clock. A single target given as `targets` counts as a list of one (231-232). -/
structure AddArgs where
  ven : String
  signalName : String
  signalType : String
  intervals : List Interval
  callback : Option Callback := none
  delivery : Option Nat := none
  eventId : String
  targets : Option Targets := none
  targetsByType : Option TargetsByType := none
  target : Option (List (String × Value)) := none
  responseRequired : String := "always"
  marketContext : String := "oadr://unknown.context"
  notification : Option Int := none
  rampUp : Option Int := none
  recovery : Option Int := none
  signalId : String
  now : Int
  deriving DecidableEq, Repr

/-- openleadr/server.py:224-230: the target argument that counts. -/
def pickTargets (a : AddArgs) : Targets :=
  match a.target, a.targets, a.targetsByType with
  | none, none, none => [[("ven_id", .str a.ven)]]
  | some t, _, _ => [t]
  | none, _, some g => ungroupTargetsByType g.toDict
  | none, some ts, none => ts

/-- openleadr/objects.py:220-233 `Event.__post_init__`, the targets: both given must agree, one given determines the other, none is refused.
    (`Target(**t)` for an unknown target type, which raises `TypeError`, is not modelled.) -/
def eventTargets (targets : Option Targets) (byType : Option TargetsByType) : Res (Targets × TargetsByType) :=
  match targets, byType with
  | none, none => .error .valueError                                    -- 220-221
  | some ts, none => .ok (ts, groupTargetsByType ts)                    -- 222-224
  | none, some g => .ok (ungroupTargetsByType g.toDict, g)              -- 225-226
  | some ts, some g => if groupTargetsByType ts = g then .ok (ts, g) else .error .valueError   -- 227-233

/-- openleadr/objects.py:175-198 `EventSignal.__post_init__`: names, types and targets. -/
def signalChecks (sig : Signal) : Res Unit :=
  if ¬ signalTypes.contains sig.signalType then .error .valueError
  else if ¬ signalNameOk sig.signalName then .error .valueError
  else match sig.targets, sig.targetsByType with
    | none, _ => .ok ()
    | some ts, none => if (groupTargetsByType ts).length > 1 then .error .valueError else .ok ()
    | some ts, some g => if groupTargetsByType ts = g then .ok () else .error .valueError

/-- openleadr/server.py:242-266: the event made from the arguments; `Event.__post_init__` (openleadr/objects.py:210-235) sets
    `targets_by_type` and the status. -/
def makeEvent (a : AddArgs) (period : ActivePeriod) : Event :=
  let period := { period with rampUp := a.rampUp, notification := a.notification, recovery := a.recovery }
  { descriptor := { eventId := a.eventId, modificationNumber := 0, marketContext := a.marketContext,
                    status := determineStatus a.now period, created := some a.now, modified := some a.now, priority := some 0 },
    signals := [{ intervals := a.intervals, signalName := a.signalName, signalType := a.signalType, signalId := a.signalId }],
    targets := some (pickTargets a), targetsByType := some (groupTargetsByType (pickTargets a)),
    activePeriod := period, responseRequired := some a.responseRequired }

/-- openleadr/server.py:183-269 `add_event`. `none` as result: refused because of external polling (207-213). The pattern for the market
    context (214-215) matches every text. -/
def addEvent (s : Server) (a : AddArgs) : Server × Res (Option String) :=
  if s.external then (s, .ok none)
  else if ¬ (a.responseRequired = "always" ∨ a.responseRequired = "never") then (s, .error .valueError)     -- 218-220
  else if ¬ signalTypes.contains a.signalType then (s, .error .valueError)                                  -- 233-235
  else if ¬ signalNameOk a.signalName then (s, .error .valueError)                                          -- 236-238
  else match activePeriodOf (a.intervals.map (fun i => (i.dtstart, i.duration))) with
    | .error _ => (s, .error .valueError)                                                                   -- 239-240: no intervals
    | .ok period =>
      match addRawEvent s a.ven (makeEvent a period) a.callback a.delivery with
      | (s', .ok id) => (s', .ok (some id))
      | (s', .error e) => (s', .error e)

/-- Replace the first element that satisfies `p`. -/
def updateFirst (p : α → Bool) (f : α → α) : List α → List α
  | [] => []
  | a :: l => if p a then f a :: l else a :: updateFirst p f l

/-- Remove the first element that satisfies `p`. -/
def eraseFirst (p : α → Bool) : List α → List α
  | [] => []
  | a :: l => if p a then l else a :: eraseFirst p l

/-- `find_by(events, 'event_descriptor.event_id', id)` -/
def hasId (id : String) (e : Event) : Bool := e.id == id

/-- openleadr/server.py:334-336 with openleadr/utils.py:843-849. -/
def cancelled (e : Event) : Event :=
  { e with descriptor := { e.descriptor with status := .cancelled, modificationNumber := e.descriptor.modificationNumber + 1 } }

/-- openleadr/server.py:319-338 `cancel_event` (returns nothing in all cases; unknown VENs and events are only logged). -/
def cancelEvent (s : Server) (ven id : String) : Server :=
  match Dict.get? s.events ven with
  | none => s                                                                            -- 323-326
  | some q =>
    match q.find? (hasId id) with
    | none => s                                                                          -- 329-333
    | some _ =>
      { s with events := Dict.set s.events ven (updateFirst (hasId id) cancelled q),
               updated := Dict.set s.updated ven true }

/-- The reply of a handler: `('oadrResponse', {})`, `('oadrDistributeEvent', {'events': …})`, and from a user's poll handler: its own
    tuple, a bare list as payload, or any other value as payload. -/
inductive Reply
  | response
  | distribute (events : List Event)
  | user (type : String) (payload : Value)
  | bareList (events : List Event)
  | bareValue (v : Value)
  deriving DecidableEq, Repr

/-- openleadr/service/event_service.py:45-53: completed events are removed from the queue and remembered. `result` is the list being
    iterated, `stored` the queue (when they are different lists). -/
def popCompleted (stored : List Event) (ids : List String) : List Event → List Event × List String
  | [] => (stored, ids)
  | e :: l =>
    if e.status = .completed then popCompleted (eraseFirst (fun x => decide (x = e)) stored) (ids ++ [e.id]) l
    else popCompleted stored ids l

/-- The same when both are the same list of one event: the iteration ends because the list has become empty. -/
def popCompletedAliased (stored : List Event) (ids : List String) : List Event × List String :=
  match stored with
  | [e] => if e.status = .completed then ([], ids ++ [e.id]) else ([e], ids)
  | l => (l, ids)

/-- openleadr/service/event_service.py:70-73: the delivery callbacks, in the order of the events; the first exception ends it. -/
def deliverAll (env : Env) (delivery : List (String × Nat)) : List Event → List Effect × Option Err
  | [] => ([], none)
  | e :: l =>
    match Dict.get? delivery e.id with
    | none => deliverAll env delivery l
    | some cb =>
      match env.raises (.delivered cb) with
      | some err => ([.delivered cb], some err)
      | none => let r := deliverAll env delivery l; (.delivered cb :: r.1, r.2)

/-- Record completed ids; the entry of the VEN is created only when there is an id (event_service.py:49-50). -/
def recordCompleted (d : List (String × List String)) (ven : String) (old new : List String) : List (String × List String) :=
  if old = new then d else Dict.set d ven new

/-- The part of `request_event` before the delivery callbacks (event_service.py:41-66), internal polling: the new state and the events
    (`none`: nothing queued). -/
def takeEvents (clock : Nat → Int) (s : Server) (ven : String) : Server × Option (List Event) :=
  match Dict.get? s.events ven with
  | none => (s, none)
  | some [] => (s, none)
  | some (e :: q) =>
    let o := orderEvents clock (e :: q) none none
    let old := s.completedOf ven
    if o.aliased then
      let r := popCompletedAliased o.stored old
      ({ s with events := Dict.set s.events ven r.1, completedIds := recordCompleted s.completedIds ven old r.2 }, some r.1)
    else
      let r := popCompleted o.stored old o.result
      ({ s with events := Dict.set s.events ven r.1, completedIds := recordCompleted s.completedIds ven old r.2 }, some o.result)

/-- openleadr/service/event_service.py:36-74 `request_event`. -/
def requestEvent (env : Env) (clock : Nat → Int) (s : Server) (ven : String) : Server × List Effect × Res Reply :=
  let r := if s.external then (s, (env.onRequestEvent ven).map (fun l => (orderEvents clock l none none).result))
           else takeEvents clock s ven
  match r.2 with
  | none => (r.1, [], .ok .response)
  | some events =>
    match deliverAll env r.1.delivery events with
    | (effects, some err) => (r.1, effects, .error err)
    | (effects, none) => (r.1, effects, .ok (.distribute events))

/-- One event response of a VEN. -/
structure EventResponse where
  eventId : String
  modificationNumber : Int
  optType : String
  deriving DecidableEq, Repr

/-- openleadr/service/event_service.py:105-124: the callback of one response. -/
def fireCallback (env : Env) (s : Server) (ven : String) (r : EventResponse) : Server × List Effect × Option Err :=
  match Dict.get? s.callbacks r.eventId with
  | none => (s, [], none)
  | some (.future f) =>
    let s := { s with callbacks := Dict.erase s.callbacks r.eventId }
    if s.doneFutures.contains f then (s, [], none)
    else ({ s with doneFutures := s.doneFutures ++ [f] }, [.resolved f r.optType], none)
  | some (.func c _) =>
    let s := { s with callbacks := Dict.erase s.callbacks r.eventId }
    (s, [.responded c ven r.eventId r.optType], env.raises (.responded c ven r.eventId r.optType))

/-- `find_by(events, 'event_descriptor.event_id', id, 'event_descriptor.modification_number', n)` -/
def hasIdAndNumber (r : EventResponse) (e : Event) : Bool := e.id == r.eventId && e.modnum == r.modificationNumber

/-- openleadr/service/event_service.py:92-124: one event response (internal polling). -/
def respondOne (env : Env) (s : Server) (ven : String) (r : EventResponse) : Server × List Effect × Option Err :=
  match Dict.get? s.events ven with
  | none => (s, [], some .keyError)                                                      -- 95
  | some q =>
    match q.find? (hasIdAndNumber r) with
    | none =>
      if (s.completedOf ven).contains r.eventId then (s, [], some .typeError)            -- 103: getmember(None, …)
      else (s, [], some (.oadr 452))                                                     -- 98-102
    | some e =>
      let s := if e.status = .cancelled then
                 { s with events := Dict.set s.events ven (eraseFirst (hasId r.eventId) q) }   -- 103-104
               else s
      fireCallback env s ven r

/-- The loop over the responses. -/
def respondAll (env : Env) (s : Server) (ven : String) : List EventResponse → Server × List Effect × Option Err
  | [] => (s, [], none)
  | r :: rs =>
    match respondOne env s ven r with
    | (s', effects, some err) => (s', effects, some err)
    | (s', effects, none) =>
      let x := respondAll env s' ven rs
      (x.1, effects ++ x.2.1, x.2.2)

/-- openleadr/service/event_service.py:125-129, external polling. -/
def respondExternal (env : Env) (ven : String) : List EventResponse → List Effect × Option Err
  | [] => ([], none)
  | r :: rs =>
    let eff : Effect := .onCreatedEvent ven r.eventId r.optType
    match env.raises eff with
    | some err => ([eff], some err)
    | none => let x := respondExternal env ven rs; (eff :: x.1, x.2)

/-- openleadr/service/event_service.py:86-130 `created_event`. -/
def createdEvent (env : Env) (s : Server) (ven : String) (rs : List EventResponse) : Server × List Effect × Res Reply :=
  let x := if s.external then (let y := respondExternal env ven rs; (s, y.1, y.2)) else respondAll env s ven rs
  match x with
  | (s', effects, some err) => (s', effects, .error err)
  | (s', effects, none) => (s', effects, .ok .response)

/-- openleadr/service/poll_service.py:128-141: the result of the user's poll handler as a reply. -/
def pollReply : PollResult → Reply
  | .nothing => .response                        -- 130-131
  | .message t p => .user t p                    -- 132-133
  | .eventList l => .bareList l                  -- 134-135
  | .event e => .distribute [e]                  -- 136-139
  | .other v => .bareValue v                     -- 140-141

/-- openleadr/service/poll_service.py:113-141 `poll`. -/
def poll (env : Env) (clock : Nat → Int) (s : Server) (ven : String) : Server × List Effect × Res Reply :=
  if s.external then                                                                       -- 119-120
    match env.raises (.onPoll ven) with
    | some err => (s, [.onPoll ven], .error err)
    | none => (s, [.onPoll ven], .ok (pollReply (env.onPoll ven)))
  else if s.flag ven then                                                                  -- 121-124
    match requestEvent env clock s ven with
    | (s', effects, .error err) => (s', effects, .error err)
    | (s', effects, .ok reply) => ({ s' with updated := Dict.set s'.updated ven false }, effects, .ok reply)
  else (s, [], .ok .response)                                                              -- 125-126

/-- openleadr/server.py:340-360 `add_handler` for `on_poll`: both services switch to external polling. -/
def addPollHandler (s : Server) : Server := { s with external := true }

/-! ### Histories -/

/-- The operations: of the user (add, add raw, cancel) and messages of the VENs, each with the readings of the clock it makes. -/
inductive Op
  | add (a : AddArgs)
  | addRaw (ven : String) (event : Event) (callback : Option Callback) (delivery : Option Nat)
  | cancel (ven id : String)
  | request (ven : String) (clock : Nat → Int)
  | poll (ven : String) (clock : Nat → Int)
  | respond (ven : String) (rs : List EventResponse)

/-- The VEN that an operation is about. -/
def Op.ven : Op → String
  | .add a => a.ven
  | .addRaw v _ _ _ => v
  | .cancel v _ => v
  | .request v _ => v
  | .poll v _ => v
  | .respond v _ => v

/-- What an operation gives back. -/
inductive Out
  | reply (r : Res Reply)
  | added (r : Res (Option String))
  | nothing
  deriving DecidableEq, Repr

/-- One operation. -/
def step (env : Env) (s : Server) : Op → Server × List Effect × Out
  | .add a => let x := addEvent s a; (x.1, [], .added x.2)
  | .addRaw v e c d => let x := addRawEvent s v e c d
                       (x.1, [], .added (match x.2 with | .ok id => .ok (some id) | .error err => .error err))
  | .cancel v id => (cancelEvent s v id, [], .nothing)
  | .request v clock => let x := requestEvent env clock s v; (x.1, x.2.1, .reply x.2.2)
  | .poll v clock => let x := poll env clock s v; (x.1, x.2.1, .reply x.2.2)
  | .respond v rs => let x := createdEvent env s v rs; (x.1, x.2.1, .reply x.2.2)

/-- A history: the state after it, all calls of user code and all results, in order. -/
def runOps (env : Env) (s : Server) : List Op → Server × List Effect × List Out
  | [] => (s, [], [])
  | op :: ops =>
    let x := step env s op
    let y := runOps env x.1 ops
    (y.1, x.2.1 ++ y.2.1, x.2.2 :: y.2.2)

end Openleadr
