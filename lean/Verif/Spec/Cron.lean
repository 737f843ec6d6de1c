/-! Specification of a periodic schedule. -/
namespace Openleadr.Spec

/-- After every firing the next one comes exactly one interval later. -/
def Periodic (fires : Nat → Bool) (interval : Nat) : Prop :=
  (∃ t, fires t = true) ∧
  ∀ t, fires t = true → fires (t + interval) = true ∧ ∀ s, t < s → s < t + interval → fires s = false

/-- The intervals (microseconds) that divide the minute, hour or day they are counted in. -/
def EvenInterval (i : Nat) : Prop :=
  (0 < i ∧ i < 60000000 ∧ 1000000 ∣ i ∧ i ∣ 60000000) ∨
  (60000000 ≤ i ∧ i < 3600000000 ∧ 60000000 ∣ i ∧ i ∣ 3600000000) ∨
  (3600000000 ≤ i ∧ i ≤ 86400000000 ∧ 3600000000 ∣ i ∧ i ∣ 86400000000)

end Openleadr.Spec
