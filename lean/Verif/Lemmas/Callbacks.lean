import Verif.Model.ServerReports
/-!
The dict of callbacks.
-/
namespace Openleadr

theorem getCallback_set_self (d : List ((Value × Value) × Value)) (k : Value × Value) (v : Value) : getCallback (setCallback d k v) k = some v := by
  induction d with
  | nil => simp [setCallback, getCallback]
  | cons e r ih =>
    obtain ⟨k', v'⟩ := e
    by_cases h : k' = k <;> simp [setCallback, getCallback, h, ih]

theorem getCallback_set_other (d : List ((Value × Value) × Value)) (k k' : Value × Value) (v : Value) (h : k' ≠ k) :
    getCallback (setCallback d k v) k' = getCallback d k' := by
  induction d with
  | nil => simp [setCallback, getCallback, Ne.symm h]
  | cons e r ih =>
    obtain ⟨k0, v0⟩ := e
    by_cases h0 : k0 = k
    · subst h0; simp [setCallback, getCallback, Ne.symm h]
    · simp only [setCallback, h0, if_false, getCallback, ih]

end Openleadr
