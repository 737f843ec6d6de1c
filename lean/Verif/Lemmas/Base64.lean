import Verif.Model.Certificate
import Verif.Spec.Base64
/-!
Decoding of Base64: `a2bBase64` reads back what is written in Base64, with blanks anywhere, and stops at a padding.
-/
namespace Openleadr
open Spec

/-- Bytes in front of what the rest gives. -/
def before (pre : List UInt8) (rest : Res (List UInt8)) : Res (List UInt8) :=
  match rest with
  | .ok l => .ok (pre ++ l)
  | .error e => .error e

theorem before_nil (r : Res (List UInt8)) : before [] r = r := by cases r <;> rfl

theorem before_before (a b : List UInt8) (r : Res (List UInt8)) : before a (before b r) = before (a ++ b) r := by
  cases r <;> simp [before]

theorem andThen_before (n : Nat) (b : List UInt8) (r : Res (List UInt8)) : andThen n (before b r) = before (n.toUInt8 :: b) r := by
  cases r <;> simp [before, andThen]

theorem andThen_eq (n : Nat) (r : Res (List UInt8)) : andThen n r = before [n.toUInt8] r := by cases r <;> rfl

theorem base64Char_value : ∀ n < 64, base64Value (base64Char n) = some n ∧ base64Char n ≠ '=' ∧ isBlank (base64Char n) = false := by decide +kernel

theorem base64Char_ascii (n : Nat) : (base64Char n).toNat < 128 := by
  by_cases h : n < 64
  · revert n; decide +kernel
  · have : base64Char n = 'A' := by
      unfold base64Char
      rw [List.getD_eq_getElem?_getD, List.getElem?_eq_none (by rw [show base64Alphabet.length = 64 from by decide +kernel]; omega)]
      rfl
    rw [this]; decide

theorem blank_skipped {c : Char} (h : isBlank c = true) : c ≠ '=' ∧ base64Value c = none ∧ isPySpace c = true ∧ c.toNat < 128 := by
  simp only [isBlank, Bool.or_eq_true, beq_iff_eq] at h
  rcases h with ((rfl | rfl) | rfl) | rfl <;> decide

theorem a2b_blanks (q l p : Nat) (body : Text) : a2bBase64 q l p body = a2bBase64 q l p (body.filter (fun c => !isBlank c)) := by
  induction body generalizing q l p with
  | nil => rfl
  | cons c cs ih =>
    cases hb : isBlank c with
    | true =>
      obtain ⟨h1, h2, -⟩ := blank_skipped hb
      simp only [a2bBase64, h1, if_false, h2, List.filter_cons, hb, Bool.not_true, Bool.false_eq_true]
      exact ih q l p
    | false =>
      simp only [List.filter_cons, hb, Bool.not_false, if_true, a2bBase64]
      split
      · split
        · split
          · rfl
          · exact ih _ _ _
        · exact ih _ _ _
      · split
        · exact ih _ _ _
        · split <;> simp only [← ih]

theorem a2b_zero {v : Nat} (h : v < 64) (l p : Nat) (cs : Text) : a2bBase64 0 l p (base64Char v :: cs) = a2bBase64 1 v 0 cs := by
  obtain ⟨h1, h2, -⟩ := base64Char_value v h
  simp [a2bBase64, h1, h2]

theorem a2b_one {v : Nat} (h : v < 64) (l p : Nat) (cs : Text) :
    a2bBase64 1 l p (base64Char v :: cs) = andThen (l * 4 + v / 16) (a2bBase64 2 (v % 16) 0 cs) := by
  obtain ⟨h1, h2, -⟩ := base64Char_value v h
  simp [a2bBase64, h1, h2]

theorem a2b_two {v : Nat} (h : v < 64) (l p : Nat) (cs : Text) :
    a2bBase64 2 l p (base64Char v :: cs) = andThen (l * 16 + v / 4) (a2bBase64 3 (v % 4) 0 cs) := by
  obtain ⟨h1, h2, -⟩ := base64Char_value v h
  simp [a2bBase64, h1, h2]

theorem a2b_three {v : Nat} (h : v < 64) (l p : Nat) (cs : Text) :
    a2bBase64 3 l p (base64Char v :: cs) = andThen (l * 64 + v) (a2bBase64 0 0 0 cs) := by
  obtain ⟨h1, h2, -⟩ := base64Char_value v h
  simp [a2bBase64, h1, h2]

theorem andThen_of {n : Nat} {a : UInt8} (h : n = a.toNat) (r : Res (List UInt8)) : andThen n r = before [a] r := by
  subst h; rw [andThen_eq]; simp

theorem a2b_pad_two (l : Nat) (cs : Text) : a2bBase64 2 l 0 ('=' :: '=' :: cs) = .ok [] := by simp [a2bBase64]

theorem a2b_pad_three (l : Nat) (cs : Text) : a2bBase64 3 l 0 ('=' :: cs) = .ok [] := by simp [a2bBase64]

/-- What is written in Base64 is read back; whatever follows is read as well, unless there was a padding. -/
theorem a2b_base64 (der : List UInt8) (rest : Text) :
    a2bBase64 0 0 0 (base64 der ++ rest) = if der.length % 3 = 0 then before der (a2bBase64 0 0 0 rest) else .ok der := by
  fun_induction base64 der with
  | case1 => simp [before_nil]
  | case2 a =>
    have ha := a.toNat_lt
    simp only [List.cons_append, List.nil_append, List.length_cons, List.length_nil]
    rw [a2b_zero (by omega), a2b_one (by omega), a2b_pad_two, andThen_of (a := a) (by omega)]
    simp [before]
  | case3 a b =>
    have ha := a.toNat_lt
    have hb := b.toNat_lt
    simp only [List.cons_append, List.nil_append, List.length_cons, List.length_nil]
    rw [a2b_zero (by omega), a2b_one (by omega), a2b_two (by omega), a2b_pad_three, andThen_of (a := a) (by omega),
      andThen_of (a := b) (by omega)]
    simp [before]
  | case4 a b c r ih =>
    have ha := a.toNat_lt
    have hb := b.toNat_lt
    have hc := c.toNat_lt
    simp only [List.cons_append, List.length_cons]
    rw [a2b_zero (by omega), a2b_one (by omega), a2b_two (by omega), a2b_three (by omega), ih, andThen_of (a := a) (by omega),
      andThen_of (a := b) (by omega), andThen_of (a := c) (by omega)]
    by_cases h : r.length % 3 = 0
    · rw [if_pos h, if_pos (by omega)]; simp [before_before]
    · rw [if_neg h, if_neg (by omega)]; simp [before]

theorem base64_chars (der : List UInt8) : ∀ c ∈ base64 der, isBlank c = false ∧ c.toNat < 128 := by
  fun_induction base64 der with
  | case1 => simp
  | case2 a =>
    have ha := a.toNat_lt
    intro c hc
    simp only [List.mem_cons, List.not_mem_nil, or_false] at hc
    rcases hc with rfl | rfl | rfl | rfl
    · exact ⟨(base64Char_value _ (by omega)).2.2, base64Char_ascii _⟩
    · exact ⟨(base64Char_value _ (by omega)).2.2, base64Char_ascii _⟩
    · decide
    · decide
  | case3 a b =>
    have ha := a.toNat_lt
    have hb := b.toNat_lt
    intro c hc
    simp only [List.mem_cons, List.not_mem_nil, or_false] at hc
    rcases hc with rfl | rfl | rfl | rfl
    · exact ⟨(base64Char_value _ (by omega)).2.2, base64Char_ascii _⟩
    · exact ⟨(base64Char_value _ (by omega)).2.2, base64Char_ascii _⟩
    · exact ⟨(base64Char_value _ (by omega)).2.2, base64Char_ascii _⟩
    · decide
  | case4 a b c r ih =>
    have ha := a.toNat_lt
    have hb := b.toNat_lt
    have hc := c.toNat_lt
    intro c hc
    simp only [List.mem_cons] at hc
    rcases hc with rfl | rfl | rfl | rfl | hc
    · exact ⟨(base64Char_value _ (by omega)).2.2, base64Char_ascii _⟩
    · exact ⟨(base64Char_value _ (by omega)).2.2, base64Char_ascii _⟩
    · exact ⟨(base64Char_value _ (by omega)).2.2, base64Char_ascii _⟩
    · exact ⟨(base64Char_value _ (by omega)).2.2, base64Char_ascii _⟩
    · exact ih c hc

/-- Is the character a digit of Base64? -/
def isDigit64 (c : Char) : Bool := (base64Value c).isSome

theorem base64_digits (der : List UInt8) (h : der.length % 3 = 0) :
    (∀ c ∈ base64 der, c ≠ '=') ∧ ((base64 der).countP isDigit64) % 4 = 0 := by
  fun_induction base64 der with
  | case1 => simp
  | case2 a => simp at h
  | case3 a b => simp at h
  | case4 a b c r ih =>
    have ha := a.toNat_lt
    have hb := b.toNat_lt
    have hc := c.toNat_lt
    obtain ⟨i1, i2⟩ := ih (by simp only [List.length_cons] at h; omega)
    have d : ∀ n < 64, isDigit64 (base64Char n) = true := fun n hn => by simp [isDigit64, (base64Char_value n hn).1]
    refine ⟨?_, ?_⟩
    · intro c hc
      simp only [List.mem_cons] at hc
      rcases hc with rfl | rfl | rfl | rfl | hc
      · exact (base64Char_value _ (by omega)).2.1
      · exact (base64Char_value _ (by omega)).2.1
      · exact (base64Char_value _ (by omega)).2.1
      · exact (base64Char_value _ (by omega)).2.1
      · exact i1 c hc
    · simp only [List.countP_cons]
      rw [d _ (by omega), d _ (by omega), d _ (by omega), d _ (by omega)]
      simp only [if_true]
      omega

/-- Text without `=` gives a byte for the second, third and fourth of every four digits. -/
theorem a2b_digits (s X : Text) (q l p : Nat) (hq : q < 4) (hs : ∀ c ∈ s, c ≠ '=') :
    ∃ pre l' p', a2bBase64 q l p (s ++ X) = before pre (a2bBase64 ((q + s.countP isDigit64) % 4) l' p' X) ∧
      pre.length + (q - 1) = 3 * ((q + s.countP isDigit64) / 4) + ((q + s.countP isDigit64) % 4 - 1) := by
  induction s generalizing q l p with
  | nil =>
    refine ⟨[], l, p, ?_, ?_⟩
    · rw [before_nil]; simp [Nat.mod_eq_of_lt hq]
    · simp only [List.countP_nil, List.length_nil]; omega
  | cons c cs ih =>
    have hc : c ≠ '=' := hs c List.mem_cons_self
    have hcs : ∀ c ∈ cs, c ≠ '=' := fun c h => hs c (List.mem_cons_of_mem _ h)
    cases hv : base64Value c with
    | none =>
      obtain ⟨pre, l', p', h1, h2⟩ := ih q l p hq hcs
      have hd : isDigit64 c = false := by simp [isDigit64, hv]
      refine ⟨pre, l', p', ?_, ?_⟩
      · simp only [List.cons_append, a2bBase64, hc, if_false, hv, List.countP_cons, hd, Bool.false_eq_true, Nat.add_zero]
        exact h1
      · simp only [List.countP_cons, hd, Bool.false_eq_true, if_false, Nat.add_zero]
        exact h2
    | some v =>
      have hd : isDigit64 c = true := by simp [isDigit64, hv]
      have hcount : (c :: cs).countP isDigit64 = cs.countP isDigit64 + 1 := by simp [List.countP_cons, hd]
      rw [hcount]
      rcases (by omega : q = 0 ∨ q = 1 ∨ q = 2 ∨ q = 3) with rfl | rfl | rfl | rfl
      · obtain ⟨pre, l', p', h1, h2⟩ := ih 1 v 0 (by omega) hcs
        refine ⟨pre, l', p', ?_, by omega⟩
        simp only [List.cons_append, a2bBase64, hc, if_false, hv]
        rw [h1, show 1 + cs.countP isDigit64 = 0 + (cs.countP isDigit64 + 1) by omega]
      · obtain ⟨pre, l', p', h1, h2⟩ := ih 2 (v % 16) 0 (by omega) hcs
        refine ⟨(l * 4 + v / 16).toUInt8 :: pre, l', p', ?_, by simp only [List.length_cons]; omega⟩
        simp only [List.cons_append, a2bBase64, hc, if_false, hv]
        rw [h1, andThen_before, show 2 + cs.countP isDigit64 = 1 + (cs.countP isDigit64 + 1) by omega]
      · obtain ⟨pre, l', p', h1, h2⟩ := ih 3 (v % 4) 0 (by omega) hcs
        refine ⟨(l * 16 + v / 4).toUInt8 :: pre, l', p', ?_, by simp only [List.length_cons]; omega⟩
        simp only [List.cons_append, a2bBase64, hc, if_false, hv]
        rw [h1, andThen_before, show 3 + cs.countP isDigit64 = 2 + (cs.countP isDigit64 + 1) by omega]
      · obtain ⟨pre, l', p', h1, h2⟩ := ih 0 0 0 (by omega) hcs
        refine ⟨(l * 64 + v).toUInt8 :: pre, l', p', ?_, by simp only [List.length_cons]; omega⟩
        simp only [List.cons_append, a2bBase64, hc, if_false, hv]
        rw [h1, andThen_before, show (3 + (cs.countP isDigit64 + 1)) % 4 = (0 + cs.countP isDigit64) % 4 by omega]

end Openleadr
