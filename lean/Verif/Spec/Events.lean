import Verif.Model.Events
/-!
Specifications for statuses, periods and ordering, in terms of the event records only.
-/
namespace Openleadr.Spec
open Openleadr

/-- The progress of an event: far, near, active, completed. -/
def progress : Status → Nat
  | .none => 0 | .far => 1 | .near => 2 | .active => 3 | .completed => 4 | .cancelled => 5

/-- `s` is the status the clock gives to a period at the instant `now`. -/
def StatusAt (p : ActivePeriod) (now : Int) (s : Status) : Prop :=
  (s = .completed ∧ 0 < p.duration ∧ p.dtstart + p.duration ≤ now) ∨
  (s = .active ∧ p.dtstart ≤ now ∧ (0 < p.duration → now < p.dtstart + p.duration)) ∨
  (s = .near ∧ now < p.dtstart ∧ ∃ r, p.rampUp = some r ∧ p.dtstart - r ≤ now) ∨
  (s = .far ∧ now < p.dtstart ∧ ∀ r, p.rampUp = some r → now < p.dtstart - r)

/-- The events agree in everything but the status and the creation time. -/
def SameBut (e e' : Event) : Prop :=
  e' = { e with descriptor := { e.descriptor with status := e'.descriptor.status, created := e'.descriptor.created } }

/-- 1 is the highest priority, then 2, …; 0 or none is the lowest. `Higher p q`: `p` is strictly higher than `q`. -/
def HigherPriority (p q : Option Int) : Prop :=
  ∃ a, p = some a ∧ a ≠ 0 ∧ (q = none ∨ q = some 0 ∨ ∃ b, q = some b ∧ a < b)

end Openleadr.Spec
