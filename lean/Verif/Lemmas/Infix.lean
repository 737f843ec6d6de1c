import Verif.Model.Members
/-!
When a text occurs in another one.
-/
namespace Openleadr

/-- The text occurs in the other text. -/
def Occurs (a b : List Char) : Prop := ∃ pre post, b = pre ++ a ++ post

theorem isInfix_iff (a b : List Char) : isInfix a b = true ↔ Occurs a b := by
  induction b with
  | nil =>
    simp only [isInfix, Occurs]
    cases a with
    | nil => simp
    | cons c r => simp
  | cons c r ih =>
    simp only [isInfix, Bool.or_eq_true, ih, List.isPrefixOf_iff_prefix]
    constructor
    · rintro (⟨post, h⟩ | ⟨pre, post, h⟩)
      · exact ⟨[], post, by simp [h]⟩
      · exact ⟨c :: pre, post, by simp [h]⟩
    · rintro ⟨pre, post, h⟩
      cases pre with
      | nil => exact Or.inl ⟨post, by simpa using h.symm⟩
      | cons d pre =>
        simp only [List.cons_append, List.append_assoc, List.cons.injEq] at h
        exact Or.inr ⟨pre, post, by rw [h.2]; simp⟩

end Openleadr
