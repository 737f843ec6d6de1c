import Verif.Model.DateTime
import Verif.Spec.DateTime
import Verif.Lemmas.Duration
/-! Helper lemmas for timestamps. -/
namespace Openleadr
open Spec

theorem takeDigits_append (n : Nat) (ds r : Text) (h : digits ds n) : takeDigits n (ds ++ r) = some (ds, r) := by
  induction n generalizing ds with
  | zero => cases ds with
    | nil => simp [takeDigits]
    | cons a l => simp [digits] at h
  | succ n ih => cases ds with
    | nil => simp [digits] at h
    | cons a l =>
      have ha := h.2 a (by simp)
      have hl : digits l n := ⟨by have := h.1; simp at this; omega, fun c hc => h.2 c (by simp [hc])⟩
      simp [takeDigits, ha, ih l hl]

theorem takeDigits_some (n : Nat) (s ds r : Text) (h : takeDigits n s = some (ds, r)) : s = ds ++ r ∧ digits ds n := by
  induction n generalizing s ds r with
  | zero => simp [takeDigits] at h; obtain ⟨rfl, rfl⟩ := h; simp [digits]
  | succ n ih =>
    cases s with
    | nil => simp [takeDigits] at h
    | cons c s =>
      simp only [takeDigits] at h
      split at h
      · rename_i hc
        simp only [Option.map_eq_some_iff, Prod.exists] at h
        obtain ⟨a, b, hab, he⟩ := h
        simp only [Prod.mk.injEq] at he
        obtain ⟨rfl, rfl⟩ := he
        obtain ⟨h1, h2⟩ := ih _ _ _ hab
        refine ⟨by simp [h1], by simp [h2.1], ?_⟩
        intro x hx
        simp only [List.mem_cons] at hx
        rcases hx with rfl | hx
        · exact hc
        · exact h2.2 x hx
      · simp at h

theorem lit_cons (c : Char) (r : Text) : lit c (c :: r) = some r := by simp [lit]

theorem lit_some (c : Char) (s r : Text) (h : lit c s = some r) : s = c :: r := by
  cases s with
  | nil => simp [lit] at h
  | cons a l =>
    simp only [lit] at h
    split at h
    · rename_i hc; simp only [Option.some.injEq] at h; rw [hc, h]
    · simp at h

theorem datetimeMatch_text (t : TimestampText) (h : t.WellFormed) :
    datetimeMatch t.text = some (t.year, t.month, t.day, t.hour, t.minute, t.second,
      if t.fraction = [] then none else some (t.fraction.take 6)) := by
  have hf := takeWhile_digits t.fraction ('Z' :: t.rest) h.fraction (by intro _ _ h; cases h; decide)
  have hdot : (lit '.' ((if t.dot then ['.'] else []) ++ (t.fraction ++ 'Z' :: t.rest))).getD
      ((if t.dot then ['.'] else []) ++ (t.fraction ++ 'Z' :: t.rest)) = t.fraction ++ 'Z' :: t.rest := by
    cases t.dot with
    | true => simp [lit]
    | false =>
      simp only [Bool.false_eq_true, if_false, List.nil_append]
      cases hfr : t.fraction with
      | nil => simp [lit]
      | cons a l =>
        have ha := h.fraction a (by simp [hfr])
        have : a ≠ '.' := by rintro rfl; exact absurd ha (by decide)
        simp [lit, this]
  simp only [datetimeMatch, TimestampText.text, takeDigits_append _ _ _ h.year, takeDigits_append _ _ _ h.month,
    takeDigits_append _ _ _ h.day, takeDigits_append _ _ _ h.hour, takeDigits_append _ _ _ h.minute,
    takeDigits_append _ _ _ h.second, lit_cons, Option.bind_eq_bind, Option.bind_some, hdot, hf.1, hf.2]

theorem text_of_datetimeMatch (s : Text) (g) (h : datetimeMatch s = some g) :
    ∃ t : TimestampText, t.WellFormed ∧ s = t.text := by
  simp only [datetimeMatch, Option.bind_eq_bind, Option.bind_eq_some_iff, Prod.exists] at h
  obtain ⟨y, s1, h1, s2, h2, mo, s3, h3, s4, h4, d, s5, h5, s6, h6, hh, s7, h7, s8, h8, mi, s9, h9, s10, h10,
    sec, s11, h11, rest, h12, -⟩ := h
  obtain ⟨e1, d1⟩ := takeDigits_some _ _ _ _ h1
  have e2 := lit_some _ _ _ h2
  obtain ⟨e3, d3⟩ := takeDigits_some _ _ _ _ h3
  have e4 := lit_some _ _ _ h4
  obtain ⟨e5, d5⟩ := takeDigits_some _ _ _ _ h5
  have e6 := lit_some _ _ _ h6
  obtain ⟨e7, d7⟩ := takeDigits_some _ _ _ _ h7
  have e8 := lit_some _ _ _ h8
  obtain ⟨e9, d9⟩ := takeDigits_some _ _ _ _ h9
  have e10 := lit_some _ _ _ h10
  obtain ⟨e11, d11⟩ := takeDigits_some _ _ _ _ h11
  have e12 := lit_some _ _ _ h12
  generalize hu : (lit '.' s11).getD s11 = u at e12
  have hdot : ∃ b : Bool, s11 = (if b then ['.'] else []) ++ u := by
    cases hl : lit '.' s11 with
    | none => exact ⟨false, by rw [hl] at hu; simpa using hu⟩
    | some r => exact ⟨true, by rw [hl] at hu; have := lit_some _ _ _ hl; simp at hu; simp [this, hu]⟩
  obtain ⟨b, hb⟩ := hdot
  refine ⟨⟨y, mo, d, hh, mi, sec, b, u.takeWhile Char.isDigit, rest⟩, ⟨d1, d3, d5, d7, d9, d11, ?_⟩, ?_⟩
  · intro c hc; exact List.all_eq_true.mp (List.all_takeWhile (p := Char.isDigit) (l := u)) c hc
  · simp only [TimestampText.text]
    rw [← e12, List.takeWhile_append_dropWhile, ← hb, ← e11, ← e10, ← e9, ← e8, ← e7, ← e6, ← e5, ← e4, ← e3, ← e2, ← e1]

theorem ofDigitChars_lt (l : Text) (h : ∀ c ∈ l, c.isDigit) (k : Nat) :
    Nat.ofDigitChars 10 l k < (k + 1) * 10 ^ l.length := by
  induction l generalizing k with
  | nil => simp
  | cons c l ih =>
    have hc := h c (by simp)
    rw [Nat.ofDigitChars_cons]
    have := ih (fun c hc => h c (by simp [hc])) (10 * k + (c.toNat - '0'.toNat))
    have h9 : c.toNat - '0'.toNat ≤ 9 := by
      have := (Char.isDigit_iff_toNat.mp hc).2
      have e0 : '0'.toNat = 48 := rfl
      have e9 : '9'.toNat = 57 := rfl
      omega
    refine Nat.lt_of_lt_of_le this ?_
    rw [List.length_cons, Nat.pow_succ, Nat.mul_comm (10 ^ l.length) 10, ← Nat.mul_assoc]
    exact Nat.mul_le_mul_right _ (by omega)

theorem micro_eq (f : Text) (h : ∀ c ∈ f, c.isDigit) :
    microOfGroup (if f = [] then none else some (f.take 6)) = microsOfFraction f := by
  by_cases hf : f = []
  · simp [hf, microOfGroup, microsOfFraction, number]
  · simp only [microOfGroup, hf, if_false, intOfDigits, microsOfFraction, number, Nat.ofDigitChars_append,
      Nat.ofDigitChars_replicate_zero]
    have e : Nat.ofDigitChars 10 f 0 =
        10 ^ (f.drop 6).length * Nat.ofDigitChars 10 (f.take 6) 0 + Nat.ofDigitChars 10 (f.drop 6) 0 := by
      conv => lhs; rw [← List.take_append_drop 6 f, Nat.ofDigitChars_append, Nat.ofDigitChars_eq_ofDigitChars_zero]
    have hlt := ofDigitChars_lt (f.drop 6) (fun c hc => h c (List.mem_of_mem_drop hc)) 0
    have hfull := ofDigitChars_lt f h 0
    rw [e]
    generalize Nat.ofDigitChars 10 (f.take 6) 0 = A at *
    generalize Nat.ofDigitChars 10 (f.drop 6) 0 = B at *
    simp only [List.length_take, List.length_drop] at *
    by_cases hl : f.length ≤ 6
    · have h0 : f.length - 6 = 0 := by omega
      have hm : min 6 f.length = f.length := by omega
      have hB : B = 0 := by rw [h0] at hlt; simp at hlt; exact hlt
      have hpow : 10 ^ 6 = 10 ^ (6 - f.length) * 10 ^ f.length := by rw [← Nat.pow_add]; congr 1; omega
      rw [hm, h0, hB, Nat.pow_zero, Nat.one_mul, Nat.add_zero, show (1000000 : Nat) = 10 ^ 6 from rfl, hpow,
        ← Nat.mul_assoc, Nat.mul_div_cancel _ (Nat.pow_pos (by omega))]
      exact Nat.mul_comm _ _
    · have hm : min 6 f.length = 6 := by omega
      have hpow : 10 ^ f.length = 1000000 * 10 ^ (f.length - 6) := by
        rw [show (1000000 : Nat) = 10 ^ 6 from rfl, ← Nat.pow_add]; congr 1; omega
      rw [hm, hpow, Nat.mul_comm _ 1000000, Nat.mul_div_mul_left _ _ (by omega : 0 < 1000000)]
      simp only [Nat.sub_self, Nat.pow_zero, Nat.one_mul]
      generalize 10 ^ (f.length - 6) = P at *
      symm
      have hP : 0 < P := by omega
      rw [Nat.mul_add_div hP, Nat.div_eq_of_lt (by omega), Nat.add_zero]

theorem valid_iff (y mo d h mi s us : Nat) :
    (DateTime.mk y mo d h mi s us).valid = true ↔ validDateTime y mo d h mi s us := by
  simp only [DateTime.valid, decide_eq_true_eq, validDateTime]
  have hm : 1 ≤ mo → mo ≤ 12 → daysInMonth y mo = monthLength y mo := by
    intro h1 h2
    have hl : isLeap y = true ↔ (y % 400 = 0 ∨ (y % 4 = 0 ∧ y % 100 ≠ 0)) := by
      simp [isLeap]; omega
    have : mo = 1 ∨ mo = 2 ∨ mo = 3 ∨ mo = 4 ∨ mo = 5 ∨ mo = 6 ∨ mo = 7 ∨ mo = 8 ∨ mo = 9 ∨ mo = 10 ∨ mo = 11 ∨ mo = 12 := by
      omega
    rcases this with rfl | rfl | rfl | rfl | rfl | rfl | rfl | rfl | rfl | rfl | rfl | rfl <;>
      simp [daysInMonth, monthLength, hl]
  constructor
  · rintro ⟨h1, h2, h3, h4, h5, h6, h7, h8, h9, h10⟩
    rw [hm h3 h4] at h6
    exact ⟨h1, h2, h3, h4, h5, h6, by omega, by omega, by omega, by omega⟩
  · rintro ⟨h1, h2, h3, h4, h5, h6, h7, h8, h9, h10⟩
    rw [hm h3 h4]
    exact ⟨h1, h2, h3, h4, h5, h6, by omega, by omega, by omega, by omega⟩

theorem natText_digits (n : Nat) : ∀ c ∈ natText n, c.isDigit := fun _ hc =>
  Nat.isDigit_of_mem_toDigits (by omega) (by omega) hc

theorem padText_digits (w n : Nat) (hw : 0 < w) (h : n < 10 ^ w) : digits (padText w n) w := by
  have hlen : (natText n).length ≤ w := (Nat.length_toDigits_le_iff (by omega) hw).mpr h
  refine ⟨by simp [padText]; omega, ?_⟩
  intro c hc
  simp only [padText, List.mem_append] at hc
  rcases hc with hc | hc
  · rw [List.eq_of_mem_replicate hc]; decide
  · exact natText_digits n c hc

theorem number_padText (w n : Nat) : number (padText w n) = n := by
  simp [number, padText, natText, Nat.ofDigitChars_append]

theorem natText_year (n : Nat) (h1 : 1000 ≤ n) (h2 : n ≤ 9999) : natText n = padText 4 n := by
  have hlo : ¬ (natText n).length ≤ 3 := by
    intro h
    have := (Nat.length_toDigits_le_iff (b := 10) (n := n) (k := 3) (by omega) (by omega)).mp h
    omega
  have h0 : 4 - (natText n).length = 0 := by omega
  simp [padText, h0]

end Openleadr
