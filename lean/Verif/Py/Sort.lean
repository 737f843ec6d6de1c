/-!
Python's `list.sort(key=…)`: a stable sort, here an insertion sort (all stable sorts give the same result).
-/
namespace Openleadr

/-- Insert before the first element that is not smaller. -/
def insertSorted (le : α → α → Bool) (x : α) : List α → List α
  | [] => [x]
  | y :: l => if le x y then x :: y :: l else y :: insertSorted le x l

/-- Stable sort. -/
def stableSort (le : α → α → Bool) : List α → List α
  | [] => []
  | x :: l => insertSorted le x (stableSort le l)

theorem insertSorted_perm (le : α → α → Bool) (x : α) (l : List α) : (insertSorted le x l).Perm (x :: l) := by
  induction l with
  | nil => exact List.Perm.refl _
  | cons y l ih =>
    simp only [insertSorted]
    split
    · exact List.Perm.refl _
    · exact (ih.cons y).trans (List.Perm.swap x y l)

theorem stableSort_perm (le : α → α → Bool) (l : List α) : (stableSort le l).Perm l := by
  induction l with
  | nil => exact List.Perm.refl _
  | cons x l ih => exact (insertSorted_perm le x _).trans (ih.cons x)

theorem insertSorted_pairwise (le : α → α → Bool) (x : α) (l : List α)
    (trans : ∀ a b c, le a b = true → le b c = true → le a c = true) (total : ∀ a b, (le a b || le b a) = true)
    (h : l.Pairwise (fun a b => le a b = true)) : (insertSorted le x l).Pairwise (fun a b => le a b = true) := by
  induction l with
  | nil => simp [insertSorted]
  | cons y l ih =>
    rw [List.pairwise_cons] at h
    simp only [insertSorted]
    split
    · rename_i hxy
      rw [List.pairwise_cons, List.pairwise_cons]
      refine ⟨?_, h⟩
      intro z hz
      simp only [List.mem_cons] at hz
      rcases hz with rfl | hz
      · exact hxy
      · exact trans _ _ _ hxy (h.1 z hz)
    · rename_i hxy
      rw [List.pairwise_cons]
      refine ⟨?_, ih h.2⟩
      intro z hz
      have := (insertSorted_perm le x l).mem_iff.mp hz
      simp only [List.mem_cons] at this
      rcases this with rfl | hz
      · have t := total z y
        simp only [hxy, Bool.false_or] at t
        exact t
      · exact h.1 z hz

theorem stableSort_pairwise (le : α → α → Bool)
    (trans : ∀ a b c, le a b = true → le b c = true → le a c = true) (total : ∀ a b, (le a b || le b a) = true) (l : List α) :
    (stableSort le l).Pairwise (fun a b => le a b = true) := by
  induction l with
  | nil => simp [stableSort]
  | cons x l ih => exact insertSorted_pairwise le x _ trans total ih

/-- Stability: elements that compare as equal keep their order. -/
theorem stableSort_filter (le : α → α → Bool) (p : α → Bool) (l : List α)
    (hp : ∀ a b, p a = true → p b = true → le a b = true) : (stableSort le l).filter p = l.filter p := by
  have ins : ∀ (x : α) (l : List α), (insertSorted le x l).filter p = (x :: l).filter p := by
    intro x l
    induction l with
    | nil => rfl
    | cons y l ih =>
      simp only [insertSorted]
      split
      · rfl
      · rename_i hxy
        rw [List.filter_cons, ih]
        by_cases hx : p x = true
        · by_cases hy : p y = true
          · exact absurd (hp x y hx hy) hxy
          · simp [List.filter_cons, hy]
        · simp [List.filter_cons, hx]
  induction l with
  | nil => rfl
  | cons x l ih =>
    simp only [stableSort, ins]
    rw [List.filter_cons, List.filter_cons, ih]

end Openleadr
