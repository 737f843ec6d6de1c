import Verif.Spec.Wire
import Verif.Lemmas.DateTime
import Verif.Lemmas.Leaves
/-!
A `Lib` for the examples: what Python does with texts of ASCII digits. It shows that the theorems about every sound `Lib` are about something.
-/
namespace Openleadr

/-- `int` of digits. -/
def plainNat (l : Text) : Option Int := if l ≠ [] ∧ l.all Char.isDigit = true then some (Nat.ofDigitChars 10 l 0) else none

/-- `int` of digits, perhaps with a minus sign. -/
def plainInt (l : Text) : Option Int :=
  match l with
  | '-' :: l => (plainNat l).map (fun i => -i)
  | l => plainNat l

/-- `repr(float(text))` for short numbers: integers get `.0`, short decimal fractions stay as they are, other texts are no numbers. -/
def plainFloat (s : String) : Option String :=
  if (plainInt s.toList).isSome then some (s ++ ".0")
  else if s.toList.all (fun c => c.isDigit || c = '.' || c = '-') && s.toList.contains '.' && (s.toList.filter (· = '.')).length = 1 then some s
  else none

/-- What Python does with texts of ASCII digits. -/
def plainLib : Lib where
  isDigit := Char.isDigit
  readInt s := plainInt s.toList
  readFloat := plainFloat
  truncFloat r := plainInt (r.toList.takeWhile (· ≠ '.'))
  textOf _ := "?"

theorem plainNat_text (n : Nat) : plainNat (natText n) = some (n : Int) := by
  rw [plainNat, if_pos ⟨natText_ne n, List.all_eq_true.mpr (natText_digits n)⟩]
  simp [natText, Nat.ofDigitChars_toDigits]

theorem plainLib_sound : plainLib.Sound where
  digits c h := h
  letters c h := by
    simp only [plainLib]
    simp only [Char.isAlpha, Char.isUpper, Char.isLower, Char.isDigit, Bool.or_eq_true, Bool.and_eq_true, decide_eq_true_eq, Bool.and_eq_false_iff,
      decide_eq_false_iff_not, ge_iff_le, UInt32.le_iff_toNat_le] at h ⊢
    revert h
    simp only [UInt32.toNat]
    intro h
    rcases h with h | h <;> right <;> simp_all <;> omega
  minus := by decide +kernel
  ints i := by
    simp only [plainLib, String.toList_ofList, intText]
    split
    · simp only [plainInt, plainNat_text, Option.map_some, Option.some.injEq]
      omega
    · have hm : natText i.natAbs ≠ [] := natText_ne _
      have hd : ∀ c ∈ natText i.natAbs, c.isDigit := natText_digits _
      have h := plainNat_text i.natAbs
      unfold plainInt
      split
      · rename_i l heq
        have := hd '-' (by rw [heq]; simp)
        exact absurd this (by decide +kernel)
      · rw [h]
        simp only [Option.some.injEq]
        omega

end Openleadr
