import Verif.Model.Server
/-!
The events of the VEN: openleadr/client.py:1144-1260. An event is a dict made by the parser, here the record `Event`.

Simplifications: the user's handlers do not change the event they are given and do not suspend so long that another event message is
processed in between (the poll job runs one instance at a time) or the other jobs run (Model/VenWaiting drops this); the request that carries the responses is left out (its outcome is ignored,
client.py:1231).
-/
namespace Openleadr

/-- A call of the user's handler. -/
inductive VenCall
  | onEvent (e : Event)
  | onUpdate (e : Event)
  deriving DecidableEq, Repr

/-- `received_events` and `responded_events` (client.py:97-98). -/
structure VenState where
  received : List Event
  responded : List (String × Value)
  deriving DecidableEq, Repr

/-- The user's handlers: the result of a call may depend on everything, so they get the calls made so far; the placeholder for
    `on_update_event` (client.py:1013-1022) looks at `responded_events`. -/
structure VenHandlers where
  onEvent : List VenCall → Event → Res Value
  onUpdate : List VenCall → List (String × Value) → Event → Res Value

/-- openleadr/client.py:1013-1022, the placeholder for `on_update_event`. -/
def defaultOnUpdate (_ : List VenCall) (responded : List (String × Value)) (e : Event) : Res Value :=
  .ok ((Dict.get? responded e.id).getD .none)

/-- openleadr/client.py:1004-1011, the placeholder for `on_event`. -/
def defaultOnEvent (_ : List VenCall) (_ : Event) : Res Value := .ok (.str "optOut")

/-- The handlers of a new client: the placeholders. -/
def noHandlers : VenHandlers := ⟨defaultOnEvent, defaultOnUpdate⟩

/-- openleadr/client.py:193-201 `add_handler`: another name than the two is logged and ignored. A function of the user's is given the event only; that it may depend
    on everything is expressed by the calls made so far. -/
def addEventHandler (h : VenHandlers) (name : String) (f : List VenCall → Event → Res Value) : VenHandlers :=
  if name = "on_event" then { h with onEvent := f }
  else if name = "on_update_event" then { h with onUpdate := fun calls _ e => f calls e }
  else h

/-- A program that adds handlers, one after the other. -/
def addEventHandlers (l : List (String × (List VenCall → Event → Res Value))) : VenHandlers := l.foldl (fun h p => addEventHandler h p.1 p.2) noHandlers

/-- `utils.pop_by(self.received_events, 'event_descriptor.event_id', event_id)` (client.py:1165) on records. -/
def dropFirst (id : String) : List Event → List Event
  | [] => []
  | e :: l => if e.id = id then l else e :: dropFirst id l

/-- openleadr/client.py:1158-1174: the decision for one event. -/
def decideEvent (h : VenHandlers) (calls : List VenCall) (s : VenState) (e : Event) : VenState × List VenCall × Res Value :=
  match s.received.find? (fun r => decide (r.id = e.id)) with                              -- 1158
  | some r =>
    if r.modnum = e.modnum then                                                            -- 1160
      match Dict.get? s.responded e.id with                                                -- 1162
      | some v => (s, calls, .ok v)
      | none => (s, calls, .error .keyError)
    else
      let s' := { s with received := dropFirst e.id s.received ++ [e] }                    -- 1165-1166
      (s', calls ++ [.onUpdate e], h.onUpdate calls s'.responded e)                        -- 1168
  | none =>
    let s' := { s with received := s.received ++ [e] }                                     -- 1171
    (s', calls ++ [.onEvent e], h.onEvent calls e)                                         -- 1172

/-- openleadr/client.py:1176-1180: what is remembered. -/
def remember (responded : List (String × Value)) (e : Event) (result : Value) : List (String × Value) :=
  if (e.status = .completed ∨ e.status = .cancelled) ∧ Dict.has responded e.id then Dict.erase responded e.id
  else Dict.set responded e.id result

/-- openleadr/client.py:1153-1180: the loop over the events. An exception ends the loop, what was done before stays. -/
def decideAll (h : VenHandlers) (calls : List VenCall) (s : VenState) : List Event → VenState × List VenCall × Res (List Value)
  | [] => (s, calls, .ok [])
  | e :: es =>
    match decideEvent h calls s e with
    | (s', calls', .error err) => (s', calls', .error err)
    | (s', calls', .ok v) =>
      match decideAll h calls' { s' with responded := remember s'.responded e v } es with
      | (s'', calls'', .error err) => (s'', calls'', .error err)
      | (s'', calls'', .ok vs) => (s'', calls'', .ok (v :: vs))

/-- openleadr/client.py:1182: the two opt types. -/
def validOpt (v : Value) : Bool := decide (v = .str "optIn" ∨ v = .str "optOut")

/-- openleadr/client.py:1181-1185. -/
def fixResult (e : Event) (v : Value) : Value :=
  if validOpt v = false ∧ e.responseRequired = some "always" then .str "optOut" else v

/-- The same for all results, in step with the events. -/
def fixResults : List Event → List Value → List Value
  | e :: es, v :: vs => fixResult e v :: fixResults es vs
  | _, _ => []

/-- Python's `str.islower`: there is a letter, and no letter is upper case (ASCII). -/
def isLowerText (s : String) : Bool := s.toList.any Char.isLower && s.toList.all (fun c => !c.isUpper)

/-- An event message: `vtn_id`, `request_id` and the events. -/
structure EventMessage where
  vtnId : Value
  requestId : Value
  events : List Event
  deriving DecidableEq, Repr

/-- An entry of the response (client.py:1214-1219). -/
structure VenResponse where
  code : Nat
  optType : Value
  requestId : Value
  modnum : Int
  eventId : String
  deriving DecidableEq, Repr

/-- openleadr/client.py:1209-1213: 200, or 460 when one of the signals has a name that is not in `SIGNAL_NAME` (enums.py:61-72). -/
def responseCode (e : Event) : Nat := if e.signals.all (fun s => signalNames.contains s.signalName) then 200 else 460

/-- openleadr/client.py:1201-1219; the `i`-th event is looked at with reading `clock i`. -/
def responsesFor (clock : Nat → Int) (requestId : Value) : Nat → List Event → List Value → List VenResponse
  | i, e :: es, v :: vs =>
    if e.responseRequired = some "always" ∧ determineStatus (clock i) e.activePeriod ≠ .completed then
      ⟨responseCode e, v, requestId, e.modnum, e.id⟩ :: responsesFor clock requestId (i + 1) es vs
    else responsesFor clock requestId (i + 1) es vs
  | _, _, _ => []

/-- The message `oadrCreatedEvent` (client.py:1223-1229). -/
structure CreatedEvent where
  code : Nat
  requestId : Value
  responses : List VenResponse
  deriving DecidableEq, Repr

/-- openleadr/client.py:1147-1189: the results of the message. `vtn_id` is a text unless the parser made something else of it; then `islower`
    raises `AttributeError`. -/
def resultsOf (h : VenHandlers) (calls : List VenCall) (s : VenState) (m : EventMessage) : VenState × List VenCall × Bool × List Value :=
  match m.vtnId with
  | .str t =>
    if isLowerText t then (s, calls, true, m.events.map (fun _ => .str "optOut"))                    -- 1148-1151
    else
      match decideAll h calls s m.events with
      | (s', calls', .ok vs) => (s', calls', false, fixResults m.events vs)
      | (s', calls', .error _) => (s', calls', false, m.events.map (fun _ => .str "optOut"))         -- 1186-1189
  | _ => (s, calls, false, m.events.map (fun _ => .str "optOut"))

/-- openleadr/client.py:1144-1235 `_on_event`: the state, the calls, and the message that is sent, if any. -/
def onEventMessage (h : VenHandlers) (clock : Nat → Int) (calls : List VenCall) (s : VenState) (m : EventMessage) :
    VenState × List VenCall × Option CreatedEvent :=
  match resultsOf h calls s m with
  | (s', calls', invalid, results) =>
    match responsesFor clock m.requestId 0 m.events results with
    | [] => (s', calls', none)                                                                       -- 1234-1235
    | r :: rs => (s', calls', some ⟨if invalid then 452 else 200, m.requestId, r :: rs⟩)              -- 1221-1231

/-- openleadr/client.py:1251-1260 `_event_cleanup`: from the last event to the first; the `j`-th of them is looked at with reading `clock j`. -/
def cleanupFrom (clock : Nat → Int) : Nat → List Event → List Event
  | _, [] => []
  | j, e :: l =>
    let rest := cleanupFrom clock (j + 1) l
    if e.status = .cancelled ∨ determineStatus (clock j) e.activePeriod = .completed then rest else e :: rest

def cleanup (clock : Nat → Int) (l : List Event) : List Event := (cleanupFrom clock 0 l.reverse).reverse

/-- openleadr/client.py:1237-1249 `_event_status_log`: statuses follow the clock, except for cancelled events. -/
def statusLog (clock : Nat → Int) : Nat → List Event → List Event
  | _, [] => []
  | i, e :: l =>
    (if e.status = .cancelled then e
     else { e with descriptor := { e.descriptor with status := determineStatus (clock i) e.activePeriod } }) :: statusLog clock (i + 1) l

/-- What happens to the events of the VEN. -/
inductive VenOp
  | message (clock : Nat → Int) (m : EventMessage)
  | cleanup (clock : Nat → Int)
  | statusLog (clock : Nat → Int)

def venStep (h : VenHandlers) (s : VenState) (calls : List VenCall) : VenOp → VenState × List VenCall × Option CreatedEvent
  | .message clock m => onEventMessage h clock calls s m
  | .cleanup clock => ({ s with received := cleanup clock s.received }, calls, none)
  | .statusLog clock => ({ s with received := statusLog clock 0 s.received }, calls, none)

/-- A history: the state, the calls and the messages sent. -/
def runVen (h : VenHandlers) (s : VenState) (calls : List VenCall) : List VenOp → VenState × List VenCall × List (Option CreatedEvent)
  | [] => (s, calls, [])
  | op :: ops =>
    match venStep h s calls op with
    | (s', calls', out) =>
      match runVen h s' calls' ops with
      | (s'', calls'', outs) => (s'', calls'', out :: outs)

end Openleadr
