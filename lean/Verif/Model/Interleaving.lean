import Verif.Model.Server
/-!
The event queue of one VEN while replies are being produced: the delivery callbacks (openleadr/service/event_service.py:70-73) may suspend,
and then other requests and the user's code run. Events are mutable objects that the queue and the reply under construction share, so they
are modelled by references into a heap. The queue list itself is never replaced by another list object (it is created once, server.py:292-294,
and then only appended to and popped from). User code runs only at the suspensions. Completed events are popped by position
(`index` by equality in the code, event_service.py:53; the same for events that differ, as they do when they have different ids).
-/
namespace Openleadr

/-- A reply under construction: whether it is for a poll (or for a request), and the references of the events handed out; `none` when the
    list handed out is the queue itself (one event, utils.py:813-815). -/
structure Pending where
  isPoll : Bool
  refs : Option (List Nat)
  deriving DecidableEq, Repr

/-- The state for one VEN. -/
structure Live where
  heap : Nat → Event
  next : Nat
  queue : List Nat
  flag : Bool
  pending : List Pending

/-- Write to an object. -/
def setObj (heap : Nat → Event) (r : Nat) (e : Event) : Nat → Event := fun n => if n = r then e else heap n

/-- openleadr/utils.py:806-811 on the objects of a list. -/
def refreshRefs (clock : Nat → Int) (i : Nat) (heap : Nat → Event) : List Nat → (Nat → Event)
  | [] => heap
  | r :: rs => refreshRefs clock (i + 2) (setObj heap r (refresh (clock i) (clock (i + 1)) (heap r))) rs

/-- openleadr/utils.py:817-834 on references. -/
def arrangeRefs (heap : Nat → Event) (l : List Nat) : List Nat :=
  stableSort (fun a b => decide ((heap a).activePeriod.dtstart ≤ (heap b).activePeriod.dtstart))
    (stableSort (fun a b => priorityLe (eventPriority (heap a)) (eventPriority (heap b)))
      (l.filter (fun r => decide ((heap r).status = .active)))) ++
  stableSort (fun a b => decide ((heap a).activePeriod.dtstart ≤ (heap b).activePeriod.dtstart))
    (l.filter (fun r => decide ((heap r).status ≠ .active)))

/-- What happens at the queue. -/
inductive Act
  | add (e : Event)                          -- server.py:306-307 (after the checks)
  | cancel (id : String)                     -- server.py:334-338
  | begin (isPoll : Bool) (clock : Nat → Int)  -- a request or poll up to the first suspension
  | finish (k : Nat)                         -- the k-th reply under construction is completed
  | abort (k : Nat)                          -- a delivery callback of the k-th reply under construction raises
  | confirm (id : String)                    -- event_service.py:103-104, the VEN confirms the cancellation

/-- A reply: the references handed out and the events as they are sent. -/
structure Sent where
  refs : List Nat
  events : List Event

/-- openleadr/service/event_service.py:41-66 and poll_service.py:121-124 up to the delivery callbacks. Without events the reply is empty and
    there is no suspension. -/
def beginReply (s : Live) (isPoll : Bool) (clock : Nat → Int) : Live × Option Sent :=
  if isPoll ∧ s.flag = false then (s, none)                                     -- poll_service.py:125-126
  else if s.queue = [] then ({ s with flag := if isPoll then false else s.flag }, none)
  else
    let heap := refreshRefs clock 0 s.heap s.queue
    let left := s.queue.filter (fun r => decide ((heap r).status ≠ .completed))
    let handed := if s.queue.length = 1 then none else some (arrangeRefs heap s.queue)
    ({ s with heap, queue := left, pending := s.pending ++ [⟨isPoll, handed⟩] }, none)

/-- The reply is completed: poll_service.py:124 (the flag is reset) and the message is made from the objects as they are now. -/
def finishReply (s : Live) (k : Nat) : Live × Option Sent :=
  match s.pending[k]? with
  | none => (s, none)
  | some p =>
    let refs := p.refs.getD s.queue
    ({ s with flag := if p.isPoll then false else s.flag, pending := s.pending.eraseIdx k }, some ⟨refs, refs.map s.heap⟩)

/-- One action. -/
def act (s : Live) : Act → Live × Option Sent
  | .add e => ({ s with heap := setObj s.heap s.next e, next := s.next + 1, queue := s.queue ++ [s.next], flag := true }, none)
  | .cancel id =>
    match s.queue.find? (fun r => hasId id (s.heap r)) with
    | none => (s, none)
    | some r => ({ s with heap := setObj s.heap r (cancelled (s.heap r)), flag := true }, none)
  | .begin isPoll clock => beginReply s isPoll clock
  | .finish k => finishReply s k
  | .abort k => ({ s with pending := s.pending.eraseIdx k }, none)
  | .confirm id =>
    match s.queue.find? (fun r => hasId id (s.heap r)) with
    | none => (s, none)
    | some r => if (s.heap r).status = .cancelled then ({ s with queue := s.queue.erase r }, none) else (s, none)

/-- A schedule: the state after it and the replies sent, in order. -/
def runActs (s : Live) : List Act → Live × List Sent
  | [] => (s, [])
  | a :: as =>
    let x := act s a
    let y := runActs x.1 as
    (y.1, x.2.toList ++ y.2)

end Openleadr
