import Verif.Model.VenEvents
/-!
The events of the VEN when the user's handlers take their time: openleadr/client.py:1144-1260 with handlers that are coroutines. While one is
awaited (client.py:1168, 1174) the other jobs of the scheduler run: `_event_status_log` and `_event_cleanup` (client.py:174-179).

Simplifications: as in Model/VenEvents, but a handler may suspend for any time. The scheduler does not start a job of which an instance is still
running (`max_instances` is 1 by default), so no second event message is asked for while one is worked on. `_event_status_log` changes the status
in the event that the message shares with `received_events`; the loop has read the status before it calls the handler (client.py:1155) and does
not look at it again, so events are values here.
-/
namespace Openleadr

/-- A message that is worked on: the handler was called for `event` and has not answered yet. -/
structure Work where
  message : EventMessage
  results : List Value
  event : Event
  outcome : Res Value
  rest : List Event
  deriving DecidableEq, Repr

/-- The VEN, with the message that is worked on. -/
structure WaitingVen where
  state : VenState
  calls : List VenCall
  work : Option Work
  deriving DecidableEq, Repr

/-- A message that was worked through: the readings of the clock at the end, the message, and what was sent. -/
structure Handled where
  clock : Nat → Int
  message : EventMessage
  sent : Option CreatedEvent

/-- openleadr/client.py:1158-1160: the event was received before in the same revision, so that no handler is called. -/
def isKnown (s : VenState) (e : Event) : Bool :=
  match s.received.find? (fun r => decide (r.id = e.id)) with
  | some r => decide (r.modnum = e.modnum)
  | none => false

/-- openleadr/client.py:1153-1180: the loop over the events up to the next call of a handler (left: what is worked on from then on) or the end
    (right: the results, or the exception that ended the loop). -/
def proceed (h : VenHandlers) (m : EventMessage) (results : List Value) (s : VenState) (calls : List VenCall) :
    List Event → VenState × List VenCall × (Work ⊕ Res (List Value))
  | [] => (s, calls, .inr (.ok results))
  | e :: es =>
    match isKnown s e, decideEvent h calls s e with
    | false, (s', calls', r) => (s', calls', .inl ⟨m, results, e, r, es⟩)                                  -- 1168, 1172-1174
    | true, (s', calls', .error err) => (s', calls', .inr (.error err))                                    -- 1162
    | true, (s', calls', .ok v) => proceed h m (results ++ [v]) { s' with responded := remember s'.responded e v } calls' es

/-- openleadr/client.py:1201-1235: the message that is sent. -/
def replyFor (clock : Nat → Int) (m : EventMessage) (invalid : Bool) (results : List Value) : Option CreatedEvent :=
  match responsesFor clock m.requestId 0 m.events results with
  | [] => none
  | r :: rs => some ⟨if invalid then 452 else 200, m.requestId, r :: rs⟩

/-- Declining all events of a message (client.py:1189). -/
def declineAll (m : EventMessage) : List Value := m.events.map (fun _ => .str "optOut")

/-- After a part of the loop: wait for the handler, or send the responses. -/
def carryOn (clock : Nat → Int) (m : EventMessage) : VenState × List VenCall × (Work ⊕ Res (List Value)) → WaitingVen × Option Handled
  | (s, calls, .inl w) => (⟨s, calls, some w⟩, none)
  | (s, calls, .inr (.ok vs)) => (⟨s, calls, none⟩, some ⟨clock, m, replyFor clock m false (fixResults m.events vs)⟩)
  | (s, calls, .inr (.error _)) => (⟨s, calls, none⟩, some ⟨clock, m, replyFor clock m false (declineAll m)⟩)

/-- What happens to the VEN: a message arrives, the handler that is awaited answers, or one of the two jobs runs. The readings of the clock are
    those of the responses, if the message is then worked through, and those of the job. -/
inductive VenAct
  | begin (clock : Nat → Int) (m : EventMessage)
  | answer (clock : Nat → Int)
  | cleanup (clock : Nat → Int)
  | statusLog (clock : Nat → Int)

/-- One step. A message cannot arrive while another one is worked on (the poll is not started, so the VTN is not asked). -/
def actVen (h : VenHandlers) (v : WaitingVen) : VenAct → WaitingVen × Option Handled
  | .begin clock m =>
    match v.work, m.vtnId with
    | some _, _ => (v, none)
    | none, .str t =>
      if isLowerText t then (v, some ⟨clock, m, replyFor clock m true (declineAll m)⟩)                      -- 1148-1151
      else carryOn clock m (proceed h m [] v.state v.calls m.events)
    | none, _ => (v, some ⟨clock, m, replyFor clock m false (declineAll m)⟩)
  | .answer clock =>
    match v.work with
    | none => (v, none)
    | some w =>
      match w.outcome with
      | .error _ => ({ v with work := none }, some ⟨clock, w.message, replyFor clock w.message false (declineAll w.message)⟩)   -- 1186-1189
      | .ok x => carryOn clock w.message
          (proceed h w.message (w.results ++ [x]) { v.state with responded := remember v.state.responded w.event x } v.calls w.rest)
  | .cleanup clock => ({ v with state := { v.state with received := cleanup clock v.state.received } }, none)
  | .statusLog clock => ({ v with state := { v.state with received := statusLog clock 0 v.state.received } }, none)

/-- A history: the VEN afterwards, and the messages that were worked through. -/
def runVenActs (h : VenHandlers) (v : WaitingVen) : List VenAct → WaitingVen × List Handled
  | [] => (v, [])
  | a :: as =>
    match actVen h v a with
    | (v', out) =>
      match runVenActs h v' as with
      | (v'', outs) => (v'', out.toList ++ outs)

end Openleadr
