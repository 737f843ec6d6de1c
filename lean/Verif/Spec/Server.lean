import Verif.Model.Server
import Verif.Spec.Events
/-!
Specifications for the event side of the VTN.
-/
namespace Openleadr.Spec
open Openleadr

/-- `e'` is a later form of `e`: only the status, the creation time and the modification number may differ, and the modification number
    has not gone down. -/
def Evolves (e e' : Event) : Prop :=
  e' = { e with descriptor := { e.descriptor with status := e'.descriptor.status, created := e'.descriptor.created,
                                                  modificationNumber := e'.descriptor.modificationNumber } } ∧
  e.descriptor.modificationNumber ≤ e'.descriptor.modificationNumber

/-- For one VEN nothing differs between two states: its queue, its pending-update flag and its completed-event record. -/
def SameFor (ven : String) (s s' : Server) : Prop :=
  Dict.get? s'.events ven = Dict.get? s.events ven ∧ Dict.get? s'.updated ven = Dict.get? s.updated ven ∧
  Dict.get? s'.completedIds ven = Dict.get? s.completedIds ven

/-- The period of the event has ended by the clock reading `now`. -/
def Ended (e : Event) (now : Int) : Prop := StatusAt e.activePeriod now .completed

/-- The VEN asks for events (by request or poll), with these clock readings. -/
def Asks (op : Op) (ven : String) (clock : Nat → Int) : Prop := op = .request ven clock ∨ op = .poll ven clock

/-- The operation may end the life of the event `e` in the queue of `ven`: the VEN asks for events when a form of `e` that is not cancelled
    has ended, or the VEN responds to the id of the event while an event with that id is cancelled. -/
def MayEnd (s : Server) (op : Op) (ven : String) (e : Event) : Prop :=
  (∃ clock, Asks op ven clock ∧ ∃ e' ∈ s.queue ven, Evolves e e' ∧ e'.status ≠ .cancelled ∧ ∃ i, Ended e (clock i)) ∨
  (∃ rs, op = .respond ven rs ∧ (∃ r ∈ rs, r.eventId = e.id) ∧ ∃ c ∈ s.queue ven, c.id = e.id ∧ c.status = .cancelled)

/-- The operation adds (if it is accepted) an event with this id for this VEN. -/
def Adds (op : Op) (ven id : String) : Prop :=
  (∃ a, op = .add a ∧ a.ven = ven ∧ a.eventId = id) ∨ (∃ e c d, op = .addRaw ven e c d ∧ e.id = id)

/-- The operation cancels this event of this VEN. -/
def cancels (ven id : String) : Op → Bool
  | .cancel v i => v == ven && i == id
  | _ => false

/-- The events of a VEN that have this id. -/
def withId (s : Server) (ven id : String) : List Event := (s.queue ven).filter (fun e => decide (e.id = id))

/-- The operation is a poll of this VEN. -/
def polls (ven : String) : Op → Bool
  | .poll v _ => v == ven
  | _ => false

/-- The operation may change the events of this VEN from the user's side. -/
def changes (ven : String) : Op → Bool
  | .add a => a.ven == ven
  | .addRaw v _ _ _ => v == ven
  | .cancel v _ => v == ven
  | _ => false

end Openleadr.Spec
