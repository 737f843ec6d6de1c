import Verif.Model.Text
import Verif.Spec.Text
/-! Helper lemmas for texts. -/
namespace Openleadr
open Spec

/-! ### flattening -/

theorem dropWhile_filter_not (p : Char → Bool) (s : Text) : (s.dropWhile p).filter (fun c => !p c) = s.filter (fun c => !p c) := by
  induction s with
  | nil => rfl
  | cons c s ih =>
    by_cases h : p c
    · simp [h, ih]
    · simp [h]

theorem strip_filter (s : Text) : (strip s).filter (fun c => !isPySpace c) = s.filter (fun c => !isPySpace c) := by
  simp only [strip]
  rw [List.filter_reverse, dropWhile_filter_not, ← List.filter_reverse, List.reverse_reverse, dropWhile_filter_not]

theorem splitLines_ne_nil (s : Text) : splitLines s ≠ [] := by
  cases s with
  | nil => simp [splitLines]
  | cons c r =>
    simp only [splitLines]
    split
    · simp
    · split <;> simp

theorem splitLines_no_newline (s : Text) : ∀ l ∈ splitLines s, '\n' ∉ l := by
  induction s with
  | nil => simp [splitLines]
  | cons c r ih =>
    simp only [splitLines]
    split
    · intro l hl
      simp only [List.mem_cons] at hl
      rcases hl with rfl | hl
      · simp
      · exact ih l hl
    · rename_i hc
      split
      · simp; exact fun h => hc h.symm
      · rename_i l ls heq
        intro l' hl'
        simp only [List.mem_cons] at hl'
        rcases hl' with rfl | hl'
        · have := ih l (by rw [heq]; simp)
          simp [this]; exact fun h => hc h.symm
        · exact ih l' (by rw [heq]; simp [hl'])

theorem splitLines_filter (s : Text) :
    ((splitLines s).map (fun l => l.filter (fun c => !isPySpace c))).flatten = s.filter (fun c => !isPySpace c) := by
  induction s with
  | nil => simp [splitLines]
  | cons c r ih =>
    simp only [splitLines]
    split
    · rename_i hc
      subst hc
      simp [ih, show isPySpace '\n' = true from by decide]
    · split
      · rename_i heq; exact absurd heq (splitLines_ne_nil r)
      · rename_i l ls heq
        rw [heq] at ih
        simp only [List.map_cons, List.flatten_cons, List.filter_cons] at ih ⊢
        split <;> simp_all

theorem mem_strip {c : Char} {s : Text} (h : c ∈ strip s) : c ∈ s := by
  simp only [strip, List.mem_reverse] at h
  have := (List.dropWhile_sublist _).subset h
  simp only [List.mem_reverse] at this
  exact (List.dropWhile_sublist _).subset this

/-- The text neither starts nor ends with white space. -/
def Trimmed (s : Text) : Prop :=
  (∀ c r, s = c :: r → isPySpace c = false) ∧ (∀ c r, s = r ++ [c] → isPySpace c = false)

theorem dropWhile_head (p : Char → Bool) (s : Text) (c : Char) (r : Text) (h : s.dropWhile p = c :: r) : p c = false := by
  induction s with
  | nil => simp at h
  | cons a s ih =>
    by_cases ha : p a
    · simp [ha] at h; exact ih h
    · simp [ha] at h; rw [← h.1]; simpa using ha

theorem dropWhile_id (p : Char → Bool) (s : Text) (h : ∀ c r, s = c :: r → p c = false) : s.dropWhile p = s := by
  cases s with
  | nil => rfl
  | cons a s => simp [h a s rfl]

theorem strip_trimmed (s : Text) (h : Trimmed s) : strip s = s := by
  simp only [strip]
  rw [dropWhile_id _ s h.1, dropWhile_id _ s.reverse, List.reverse_reverse]
  intro c r hr
  refine h.2 c r.reverse ?_
  have := congrArg List.reverse hr
  simpa using this

theorem trimmed_strip (s : Text) : Trimmed (strip s) := by
  constructor
  · intro c r h
    -- the first character of the stripped text is the first one of `dropWhile`
    simp only [strip] at h
    generalize hu : s.dropWhile isPySpace = u at h
    cases u with
    | nil => simp at h
    | cons a u' =>
      have ha := dropWhile_head _ _ _ _ hu
      -- dropping trailing white space keeps the first character, because it is not white space
      have : ∃ v, (((a :: u').reverse).dropWhile isPySpace) = v ++ [a] := by
        simp only [List.reverse_cons]
        have gen : ∀ w : Text, ∃ v, (w ++ [a]).dropWhile isPySpace = v ++ [a] := by
          intro w
          induction w with
          | nil => exact ⟨[], by simp [ha]⟩
          | cons b w ih =>
            by_cases hb : isPySpace b
            · simpa [hb] using ih
            · exact ⟨b :: w, by simp [hb]⟩
        exact gen _
      obtain ⟨v, hv⟩ := this
      rw [hv] at h
      simp at h
      rw [← h.1]; exact ha
  · intro c r h
    simp only [strip] at h
    have h' := congrArg List.reverse h
    simp only [List.reverse_reverse, List.reverse_append, List.reverse_cons, List.reverse_nil, List.nil_append,
      List.singleton_append] at h'
    exact dropWhile_head _ _ _ _ h'

theorem trimmed_append (s t : Text) (hs : Trimmed s) (ht : Trimmed t) : Trimmed (s ++ t) := by
  constructor
  · intro c r h
    cases s with
    | nil => exact ht.1 c r h
    | cons a s' => simp at h; rw [← h.1]; exact hs.1 a s' rfl
  · intro c r h
    rcases List.eq_nil_or_concat t with rfl | ⟨t', b, rfl⟩
    · simp only [List.append_nil] at h; exact hs.2 c r h
    · rw [List.concat_eq_append, ← List.append_assoc] at h
      have := List.append_inj' h rfl
      simp at this
      rw [← this.2]; exact ht.2 b t' (by simp)

theorem trimmed_flatten (ls : List Text) (h : ∀ l ∈ ls, Trimmed l) : Trimmed ls.flatten := by
  induction ls with
  | nil => exact ⟨by simp, by simp⟩
  | cons l ls ih =>
    rw [List.flatten_cons]
    exact trimmed_append _ _ (h l (by simp)) (ih (fun l hl => h l (by simp [hl])))

theorem splitLines_single (s : Text) (h : '\n' ∉ s) : splitLines s = [s] := by
  induction s with
  | nil => rfl
  | cons c r ih =>
    simp only [List.mem_cons, not_or] at h
    simp [splitLines, ih h.2]; exact fun e => h.1 e.symm

/-! ### fingerprints -/

theorem hexText_drop (b : List UInt8) (n : Nat) : (hexText b).drop (2 * n) = hexText (b.drop n) := by
  induction n generalizing b with
  | zero => rfl
  | succ n ih =>
    cases b with
    | nil => simp [hexText]
    | cons x b =>
      have := ih b
      simp only [hexText] at this ⊢
      simpa [Nat.mul_add] using this

theorem upper_hexDigit : ∀ n < 16, (hexDigit n).toUpper = HEX.getD n '0' := by decide

theorem upper_hex_take (b : List UInt8) (x : UInt8) : upperText ((hexText (x :: b)).take 2) = hexByte x := by
  have h1 := upper_hexDigit (x.toNat / 16) (by have := x.toNat_lt; omega)
  have h2 := upper_hexDigit (x.toNat % 16) (by omega)
  simp [hexText, upperText, hexByte, h1, h2]

theorem list_of_length_ten (l : List UInt8) (h : l.length = 10) :
    ∃ a b c d e f g i j k, l = [a, b, c, d, e, f, g, i, j, k] := by
  match l, h with
  | [a, b, c, d, e, f, g, i, j, k], _ => exact ⟨a, b, c, d, e, f, g, i, j, k, rfl⟩

theorem fingerprint_eq (sha256 : List UInt8 → List UInt8) (der : List UInt8) (h : (sha256 der).length = 32) :
    fingerprintFromDer sha256 der = colonSeparated ((sha256 der).drop 22) := by
  obtain ⟨a, b, c, d, e, f, g, i, j, k, hl⟩ := list_of_length_ten ((sha256 der).drop 22) (by simp [h])
  have hk : ∀ n, (hexText (sha256 der)).drop (44 + 2 * n) = hexText (((sha256 der).drop 22).drop n) := by
    intro n
    rw [show 44 + 2 * n = 2 * (22 + n) by omega, hexText_drop, List.drop_drop]
  simp only [fingerprintFromDer, hk, hl]
  simp only [show List.range 10 = [0, 1, 2, 3, 4, 5, 6, 7, 8, 9] from rfl, List.map_cons, List.map_nil, List.drop_zero,
    List.drop_succ_cons, upper_hex_take, joinText, colonSeparated, List.append_assoc, List.singleton_append]

theorem hexByte_injective (x y : UInt8) (h : hexByte x = hexByte y) : x = y := by
  have inj : ∀ m < 16, ∀ n < 16, HEX.getD m '0' = HEX.getD n '0' → m = n := by decide
  simp only [hexByte, List.cons.injEq, and_true] at h
  have h1 := inj (x.toNat / 16) (by have := x.toNat_lt; omega) (y.toNat / 16) (by have := y.toNat_lt; omega) h.1
  have h2 := inj (x.toNat % 16) (by omega) (y.toNat % 16) (by omega) h.2
  apply UInt8.toNat_inj.mp
  omega

theorem colonSeparated_injective (l m : List UInt8) (hlen : l.length = m.length) (h : colonSeparated l = colonSeparated m) :
    l = m := by
  induction l generalizing m with
  | nil => cases m with
    | nil => rfl
    | cons _ _ => simp at hlen
  | cons a l ih =>
    cases m with
    | nil => simp at hlen
    | cons b m =>
      cases l with
      | nil => cases m with
        | nil => simp only [colonSeparated] at h; rw [hexByte_injective _ _ h]
        | cons _ _ => simp at hlen
      | cons a' l => cases m with
        | nil => simp at hlen
        | cons b' m =>
          simp only [colonSeparated] at h
          have h' := List.append_inj h (by simp [hexByte])
          rw [hexByte_injective _ _ h'.1, ih (b' :: m) (by simpa using hlen) (by simpa using h'.2)]

end Openleadr
