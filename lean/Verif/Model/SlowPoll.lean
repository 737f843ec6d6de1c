import Verif.Model.EventExchange
/-!
A poll of a VEN whose handlers take their time (openleadr/client.py:709-712, 1144-1235, 1262-1278): between handing out the events and the answers of the VEN, the VTN
goes on, and its user adds and cancels events (openleadr/server.py:183-338).

Simplifications: those of Model/EventExchange. The VEN itself does nothing else in the meantime: its scheduler starts no poll while another one runs; what its other
jobs do to its events in the meantime is C106.
-/
namespace Openleadr

/-- client.py:709-712, 1262-1278, 1144-1218: the first half of a poll. The VEN polls, and if it is given events, its handlers are asked. The result are both sides,
    and the answers that are to be sent. -/
def pollStart (k : Link) (c : Config) (env : Env) (h : VenHandlers) (vtnClock venClock : Nat → Int) (secure : Bool) (peer : Option String) (ven : Value)
    (x : Sides) : Sides × Option CreatedEvent :=
  match exchange k c (pollService env vtnClock) x.cache x.vtn secure peer "oadrPoll" [("ven_id", ven)] with
  | ((cache, vtn), .ok (some (some "oadrDistributeEvent", d))) =>
    match readEventMessage d with
    | none => ({ x with cache, vtn }, none)
    | some m =>
      match onEventMessage h venClock x.calls x.ven m with
      | (s, calls, a) => (⟨cache, vtn, s, calls⟩, a)
  | ((cache, vtn), _) => ({ x with cache, vtn }, none)

/-- client.py:1219-1230: the second half. The answers are sent to the VTN, whatever its state is by now. -/
def pollFinish (k : Link) (c : Config) (env : Env) (vtnClock : Nat → Int) (secure : Bool) (peer : Option String) (ven : Value) (a : Option CreatedEvent)
    (x : Sides) : Sides :=
  match a with
  | none => x
  | some a =>
    match exchange k c (eventService env vtnClock) x.cache x.vtn secure peer "oadrCreatedEvent" (a.payload ven) with
    | ((cache, vtn), _) => { x with cache, vtn }

/-- What the user of the VTN does. -/
def Sides.meanwhile (f : Server → Server) (x : Sides) : Sides := { x with vtn := (f x.vtn.1, x.vtn.2) }

/-- server.py:183-269: several events are added, one after the other. -/
def addEvents (s : Server) (l : List AddArgs) : Server := l.foldl (fun s a => (addEvent s a).1) s

end Openleadr
