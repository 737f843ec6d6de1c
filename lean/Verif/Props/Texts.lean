import Verif.Lemmas.Text
/-!
C05 Booleans survive the wire. C06 Text and bytes conversions are inverse. C07 Flattening XML only removes line structure.
C08 Certificate fingerprints have the OpenADR form and identify the digest tail.
-/
namespace Openleadr
open Spec

/-- **C05** (round trip): the text of a boolean is read back as that boolean; the two texts are formatted as themselves. -/
theorem c05_boolean_round_trip (b : Bool) :
    ∃ s, booleanformat (.bool b) = .ok s ∧ parseBoolean s = b ∧ booleanformat s = .ok s := by
  cases b
  · exact ⟨.str "false", by decide⟩
  · exact ⟨.str "true", by decide⟩

/-- **C05** (refusal): formatting succeeds exactly for the two booleans and their two texts, and every other value is refused
    with `ValueError`. -/
theorem c05_boolean_accepts_exactly (v : Value) :
    (v ∈ [.bool true, .bool false, .str "true", .str "false"] → ∃ s, booleanformat v = .ok s) ∧
    (v ∉ [.bool true, .bool false, .str "true", .str "false"] → booleanformat v = .error .valueError) := by
  constructor
  · intro h
    simp only [List.mem_cons, List.not_mem_nil, or_false] at h
    rcases h with rfl | rfl | rfl | rfl
    · exact ⟨.str "true", rfl⟩
    · exact ⟨.str "false", rfl⟩
    · exact ⟨.str "true", by decide⟩
    · exact ⟨.str "false", by decide⟩
  · intro h
    simp only [List.mem_cons, List.not_mem_nil, or_false, not_or] at h
    unfold booleanformat
    split
    · rename_i b; cases b <;> simp_all
    · simp [h.2.2.1, h.2.2.2]

/-- **C05** (reading): only the text `true` is read as true. -/
theorem c05_parse_true_iff (v : Value) : parseBoolean v = true ↔ v = .str "true" := by
  simp only [parseBoolean]; split <;> simp_all

/-- non-vacuity: `"yes"`, `1` and `None` are refused. -/
example : booleanformat (.str "yes") = .error .valueError ∧ booleanformat (.int 1) = .error .valueError
    ∧ booleanformat .none = .error .valueError := by decide

theorem fromUTF8_toUTF8 (s : String) : String.fromUTF8? ⟨s.toUTF8.data.toList.toArray⟩ = some s := by
  have e : (⟨s.toUTF8.data.toList.toArray⟩ : ByteArray) = s.toByteArray := by
    simp [String.toUTF8]
  rw [e, String.fromUTF8?]
  simp [s.isValidUTF8, String.fromUTF8]

/-- **C06** (round trip): text to bytes and back is the identity. -/
theorem c06_text_round_trip (s : String) (b : Value) (h : ensureBytes (.str s) = .ok b) : ensureStr b = .ok (.str s) := by
  simp only [ensureBytes, Except.ok.injEq] at h
  subst h
  simp only [ensureStr, fromUTF8_toUTF8]

/-- **C06**: every text can be converted. -/
theorem c06_text_accepted (s : String) : ∃ b, ensureBytes (.str s) = .ok (.bytes b) := ⟨_, rfl⟩

/-- **C06** (the other round trip): bytes that decode to a text are the bytes of that text. -/
theorem c06_bytes_round_trip (b : List UInt8) (s : Value) (h : ensureStr (.bytes b) = .ok s) : ensureBytes s = .ok (.bytes b) := by
  simp only [ensureStr] at h
  split at h
  · rename_i t ht
    simp only [Except.ok.injEq] at h
    subst h
    simp only [String.fromUTF8?] at ht
    split at ht
    · simp only [Option.some.injEq] at ht
      subst ht
      simp [ensureBytes, String.fromUTF8, String.toUTF8]
    · simp at ht
  · simp at h

/-- **C06**: both conversions are idempotent, keep `None`, and refuse every value that is not a text, bytes or `None` with
    `TypeError`. -/
theorem c06_conversion_domain (v : Value) :
    (∀ b, ensureBytes v = .ok b → ensureBytes b = .ok b) ∧ (∀ s, ensureStr v = .ok s → ensureStr s = .ok s) ∧
    (v = .none → ensureBytes v = .ok .none ∧ ensureStr v = .ok .none) ∧
    ((∀ s, v ≠ .str s) → (∀ b, v ≠ .bytes b) → v ≠ .none → ensureBytes v = .error .typeError ∧ ensureStr v = .error .typeError) := by
  refine ⟨?_, ?_, ?_, ?_⟩
  · intro b h; cases v <;> simp [ensureBytes] at h <;> subst h <;> rfl
  · intro s h
    cases v <;> simp [ensureStr] at h
    · subst h; rfl
    · subst h; rfl
    · split at h
      · simp at h; subst h; rfl
      · simp at h
  · rintro rfl; exact ⟨rfl, rfl⟩
  · intro h1 h2 h3
    cases v <;> simp_all [ensureBytes, ensureStr]

/-- non-vacuity: a text with a two-byte character. -/
example : ensureBytes (.str "é") = .ok (.bytes [195, 169]) ∧ ensureStr (.bytes [195, 169]) = .ok (.str "é")
    ∧ ensureStr (.bytes [195]) = .error .unicodeError := by decide +kernel

/-- **C07**: no line break is left. -/
theorem c07_no_line_break (t : Text) : '\n' ∉ flattenXml t := by
  intro h
  simp only [flattenXml, List.mem_flatten, List.mem_map, List.mem_filter] at h
  obtain ⟨l', ⟨l, ⟨hl, -⟩, rfl⟩, hm⟩ := h
  exact splitLines_no_newline t l hl (mem_strip hm)

/-- **C07**: every non-blank character is kept, in order. -/
theorem c07_keeps_characters (t : Text) :
    (flattenXml t).filter (fun c => !isPySpace c) = t.filter (fun c => !isPySpace c) := by
  rw [← splitLines_filter t]
  simp only [flattenXml, List.filter_flatten]
  generalize splitLines t = ls
  induction ls with
  | nil => rfl
  | cons l ls ih =>
    by_cases h : strip l = []
    · have hb := strip_filter l
      rw [h] at hb
      simp only [h, List.filter_cons, ne_eq, not_true_eq_false, decide_false, Bool.false_eq_true, if_false, List.map_cons,
        List.flatten_cons, ← hb]
      simpa using ih
    · simp only [h, List.filter_cons, ne_eq, not_false_eq_true, decide_true, if_true, List.map_cons, List.flatten_cons,
        strip_filter]
      rw [ih]

/-- **C07**: a text without line break loses only its outer white space, so inner white space is kept. -/
theorem c07_inner_space_kept (a t : Text) (ha : '\n' ∉ a) :
    flattenXml (a ++ '\n' :: t) = strip a ++ flattenXml t ∧ flattenXml a = strip a := by
  have h1 : splitLines (a ++ '\n' :: t) = a :: splitLines t := by
    induction a with
    | nil => simp [splitLines]
    | cons c a ih =>
      simp only [List.mem_cons, not_or] at ha
      have : c ≠ '\n' := fun e => ha.1 e.symm
      simp [splitLines, this, ih ha.2]
  constructor
  · simp only [flattenXml, h1, List.filter_cons]
    split
    · simp
    · rename_i h; simp at h; simp [h]
  · simp only [flattenXml, splitLines_single a ha, List.filter_cons]
    split
    · simp
    · rename_i h; simp at h; simp [h]

/-- **C07**: flattening twice is flattening once. -/
theorem c07_idempotent (t : Text) : flattenXml (flattenXml t) = flattenXml t := by
  rw [(c07_inner_space_kept (flattenXml t) [] (c07_no_line_break t)).2]
  apply strip_trimmed
  apply trimmed_flatten
  intro l hl
  simp only [List.mem_map, List.mem_filter] at hl
  obtain ⟨l', -, rfl⟩ := hl
  exact trimmed_strip l'

/-- non-vacuity: a small XML text. -/
example : flattenXml " <a>\n   <b> x </b>\n\n</a> ".toList = "<a><b> x </b></a>".toList := by decide

/-- **C08** (content): the fingerprint is the last ten digest bytes in upper-case hexadecimal, separated by colons. -/
theorem c08_fingerprint_is_digest_tail (sha256 : List UInt8 → List UInt8) (der : List UInt8) (h : (sha256 der).length = 32) :
    fingerprintFromDer sha256 der = colonSeparated ((sha256 der).drop 22) := fingerprint_eq sha256 der h

/-- **C08** (form) -/
theorem c08_fingerprint_form (sha256 : List UInt8 → List UInt8) (der : List UInt8) (h : (sha256 der).length = 32) :
    fingerprintForm (fingerprintFromDer sha256 der) := by
  rw [fingerprint_eq sha256 der h]
  obtain ⟨a, b, c, d, e, f, g, i, j, k, hl⟩ := list_of_length_ten ((sha256 der).drop 22) (by simp [h])
  rw [hl]
  have hm : ∀ (x : UInt8), HEX.getD (x.toNat / 16) '0' ∈ HEX ∧ HEX.getD (x.toNat % 16) '0' ∈ HEX := by
    have all : ∀ n < 16, HEX.getD n '0' ∈ HEX := by decide
    intro x
    exact ⟨all _ (by have := x.toNat_lt; omega), all _ (by omega)⟩
  constructor
  · rfl
  · intro n hn
    have hn' : n < 29 := hn
    have : n = 0 ∨ n = 1 ∨ n = 2 ∨ n = 3 ∨ n = 4 ∨ n = 5 ∨ n = 6 ∨ n = 7 ∨ n = 8 ∨ n = 9 ∨ n = 10 ∨ n = 11 ∨ n = 12 ∨ n = 13
        ∨ n = 14 ∨ n = 15 ∨ n = 16 ∨ n = 17 ∨ n = 18 ∨ n = 19 ∨ n = 20 ∨ n = 21 ∨ n = 22 ∨ n = 23 ∨ n = 24 ∨ n = 25 ∨ n = 26
        ∨ n = 27 ∨ n = 28 := by omega
    rcases this with rfl | rfl | rfl | rfl | rfl | rfl | rfl | rfl | rfl | rfl | rfl | rfl | rfl | rfl | rfl | rfl | rfl | rfl |
      rfl | rfl | rfl | rfl | rfl | rfl | rfl | rfl | rfl | rfl | rfl <;>
    first | exact (hm _).1 | exact (hm _).2 | rfl

/-- **C08** (identity): two certificates have the same fingerprint exactly when the last ten bytes of their digests agree. -/
theorem c08_fingerprint_identifies (sha256 : List UInt8 → List UInt8) (h : ∀ x, (sha256 x).length = 32) (a b : List UInt8) :
    fingerprintFromDer sha256 a = fingerprintFromDer sha256 b ↔ (sha256 a).drop 22 = (sha256 b).drop 22 := by
  rw [fingerprint_eq sha256 a (h a), fingerprint_eq sha256 b (h b)]
  constructor
  · exact colonSeparated_injective _ _ (by simp [h])
  · intro e; rw [e]

/-- non-vacuity: a function with 32-byte results and the fingerprint it gives. -/
example : (∀ x : List UInt8, ((fun _ => (List.range 32).map Nat.toUInt8) x : List UInt8).length = 32)
    ∧ fingerprintFromDer (fun _ => (List.range 32).map Nat.toUInt8) [] = "16:17:18:19:1A:1B:1C:1D:1E:1F".toList := by
  constructor
  · intro x; rfl
  · decide

end Openleadr
