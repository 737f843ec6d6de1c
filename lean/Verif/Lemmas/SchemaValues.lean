import Verif.Lemmas.Grow
/-!
Values as texts of the simple types of the schema.
-/
namespace Openleadr

open Spec

variable {lib : Lib}

theorem squeeze_id {t : Text} (h : ∀ c ∈ t, xmlSpace c = false) : Xsd.squeeze t = t := by
  induction t with
  | nil => rfl
  | cons c t ih =>
    simp only [Xsd.squeeze, h c (by simp), Bool.false_eq_true, if_false]
    rw [ih (fun c hc => h c (by simp [hc]))]

theorem collapse_id {t : Text} (h : ∀ c ∈ t, xmlSpace c = false) : Xsd.collapse t = t := by
  rw [Xsd.collapse, squeeze_id h]
  cases t with
  | nil => rfl
  | cons c t =>
    have : c ≠ ' ' := by rintro rfl; exact absurd (h ' ' (by simp)) (by decide)
    simp [this]

theorem safe_space {c : Char} (h : safeChar c = true) : xmlSpace c = false := by
  cases e : xmlSpace c with
  | false => rfl
  | true =>
    simp only [xmlSpace, Bool.or_eq_true, beq_iff_eq] at e
    rcases e with ((rfl | rfl) | rfl) | rfl <;> exact absurd h (by decide)

theorem collapse_safe {t : Text} (h : ∀ c ∈ t, safeChar c = true) : Xsd.collapse t = t := collapse_id (fun c hc => safe_space (h c hc))

theorem written_of {s : String} (h : OnWire s) : Written s.toList := by
  refine ⟨⟨fun c hc => ?_, h.brackets⟩, fun hn => (h.chars _ hn).2.1 rfl⟩
  obtain ⟨h1, h2, h3, h4, h5⟩ := h.chars c hc
  refine ⟨?_, h4, h5⟩
  simp only [XmlAllowed] at h1
  have h6 : c.toNat ≠ 13 := by
    intro e
    apply h3
    rw [← Char.ofNat_toNat c, e]
  have h7 : c.toNat = 10 → False := by
    intro e
    apply h2
    rw [← Char.ofNat_toNat c, e]
  omega

theorem written_safe {t : Text} (hne : t ≠ []) (h : ∀ c ∈ t, safeChar c = true) : Written t := by
  have := written_of (safe_onWire t hne h)
  rwa [String.toList_ofList] at this

theorem reads_text {s : String} {ok : Text → Prop} (h : OnWire s) (hok : ok s.toList) : Reads lib .plain (.str s) ok :=
  ⟨rfl, some (.str s), rfl, written_of h, hok⟩

/-- Any text. -/
theorem reads_string {s : String} (h : OnWire s) : Reads lib .plain (.str s) (fun _ => True) := reads_text h trivial

theorem reads_safe {filter : Filter} {v : Value} {t : Text} {ok : Text → Prop} (hl : isLeaf v = true) (hw : ∃ w, applyFilter filter (some v) = .ok w ∧ pyText lib w = String.ofList t)
    (hne : t ≠ []) (hs : ∀ c ∈ t, safeChar c = true) (hok : ok t) : Reads lib filter v ok := by
  obtain ⟨w, h1, h2⟩ := hw
  refine ⟨hl, w, h1, ?_, ?_⟩
  · rw [h2, String.toList_ofList]; exact written_safe hne hs
  · rw [h2, String.toList_ofList]; exact hok

/-! ### Tokens -/

/-- A list of texts none of which collapsing changes. -/
def tokens (l : List String) : Bool := l.all (fun s => decide (Xsd.collapse s.toList = s.toList))

theorem isToken_mem {l : List String} {s : String} (hs : s ∈ l) (h : tokens l = true) : Xsd.IsToken l s.toList := by
  have := List.all_eq_true.1 h s hs
  simp only [decide_eq_true_eq] at this
  rw [Xsd.IsToken, this, String.ofList_toList]
  exact hs

theorem collapsed_squeeze {t : Text} (h : collapsed t = true) : Xsd.squeeze t = t := by
  induction t with
  | nil => rfl
  | cons c t ih =>
    cases t with
    | nil =>
      simp only [collapsed, Bool.not_eq_true'] at h
      simp [Xsd.squeeze, h]
    | cons d t =>
      simp only [collapsed, Bool.and_eq_true, Bool.not_eq_true', Bool.and_eq_false_iff, Bool.or_eq_false_iff, bne_eq_false_iff_eq] at h
      rw [Xsd.squeeze, ih h.2]
      split
      · rename_i hc
        rcases h.1 with h1 | h1
        · simp [hc] at h1
        · have : d ≠ ' ' := by rintro rfl; exact absurd h1.2 (by decide)
          simp [this, h1.1]
      · rfl

/-- The user's own texts. -/
theorem isExtension_of {s : String} (h : SchemaExtension s) : Xsd.IsExtension s.toList := by
  obtain ⟨c, rest, h1, h2, h3⟩ := h
  refine ⟨c, rest, ?_, h2⟩
  rw [h1, Xsd.collapse, Xsd.squeeze, if_neg (by decide), Xsd.squeeze, if_neg (by decide), collapsed_squeeze h3]
  simp

/-! ### Numbers -/

theorem number_natText (n : Nat) : number (natText n) = n := by
  simp [number, natText]

theorem digits_natText (n : Nat) : Xsd.Digits (natText n) := ⟨natText_ne n, natText_digits n⟩

theorem isDecimal_int (i : Int) : Xsd.IsDecimal (intText i) := by
  have hc : Xsd.collapse (intText i) = intText i := collapse_safe (intText_safe i)
  unfold Xsd.IsDecimal
  rw [hc, intText]
  split
  · exact ⟨['-'], natText i.natAbs, [], .inr (.inr rfl), .inl ⟨rfl, digits_natText _⟩⟩
  · exact ⟨[], natText i.natAbs, [], .inl rfl, .inl ⟨rfl, digits_natText _⟩⟩

theorem isFloat_int (i : Int) : Xsd.IsFloat (intText i) :=
  .inr (.inr (.inr ⟨intText i, [], isDecimal_int i, collapse_safe (intText_safe i), .inl (collapse_safe (intText_safe i))⟩))

theorem reads_int {i : Int} {ok : Text → Prop} (hok : ok (intText i)) : Reads lib .plain (.int i) ok :=
  reads_safe rfl ⟨_, rfl, rfl⟩ (intText_ne i) (intText_safe i) hok

theorem isUnsigned_int {limit : Nat} {i : Int} (h0 : 0 ≤ i) (h1 : i ≤ limit) : Xsd.IsUnsigned limit (intText i) := by
  have e : intText i = natText i.natAbs := by rw [intText, if_neg (by omega)]
  refine ⟨[], natText i.natAbs, ?_, digits_natText _, ?_, .inl rfl⟩
  · rw [collapse_safe (intText_safe i), e]; rfl
  · rw [number_natText]; omega

/-- Codes of three digits. -/
theorem responseCode_int {i : Int} (h0 : 100 ≤ i) (h1 : i ≤ 999) : digits (intText i) 3 := by
  have e : intText i = natText i.natAbs := by rw [intText, if_neg (by omega)]
  have h2 : ¬ (natText i.natAbs).length ≤ 2 := by
    intro h
    have := (Nat.length_toDigits_le_iff (b := 10) (n := i.natAbs) (k := 2) (by omega) (by omega)).mp h
    omega
  have h3 : (natText i.natAbs).length ≤ 3 := (Nat.length_toDigits_le_iff (by omega) (by omega)).mpr (by omega)
  rw [e]
  exact ⟨by omega, natText_digits _⟩

/-- Other integers are no codes. -/
theorem responseCode_only {i : Int} (h : digits (intText i) 3) : 100 ≤ i ∧ i ≤ 999 := by
  by_cases hn : i < 0
  · rw [intText, if_pos hn] at h
    exact absurd (h.2 '-' (by simp)) (by decide)
  · rw [intText, if_neg hn] at h
    have h3 := (Nat.length_toDigits_le_iff (b := 10) (n := i.natAbs) (k := 3) (by omega) (by omega)).mp (by have := h.1; unfold natText at this; omega)
    have h2 : ¬ i.natAbs < 10 ^ 2 := by
      intro hlt
      have := (Nat.length_toDigits_le_iff (b := 10) (n := i.natAbs) (k := 2) (by omega) (by omega)).mpr hlt
      have h1 := h.1
      unfold natText at h1
      omega
    omega

theorem reads_float {r : String} {ok : Text → Prop} (h : OnWire r) (hok : ok r.toList) : Reads lib .plain (.float r) ok :=
  ⟨rfl, some (.float r), rfl, written_of h, hok⟩

/-! ### Booleans -/

theorem reads_bool {b : Bool} : Reads lib .booleanformat (.bool b) (Xsd.IsToken ["true", "false", "1", "0"]) := by
  cases b
  · exact reads_safe (t := "false".toList) rfl ⟨_, rfl, rfl⟩ (by decide) (by decide) (isToken_mem (s := "false") (by simp) (by decide))
  · exact reads_safe (t := "true".toList) rfl ⟨_, rfl, rfl⟩ (by decide) (by decide) (isToken_mem (s := "true") (by simp) (by decide))

/-! ### Durations and timestamps -/

theorem isDuration_format {d : Int} (h : 0 ≤ d) : Xsd.IsDuration (timedeltaformat d) := by
  have hc : ∀ (x : Char) (n : Nat) (p : Prop) [Decidable p], Xsd.Count x (if p then natText n ++ [x] else []) := by
    intro x n p _
    split
    · exact .inr ⟨_, digits_natText n, rfl⟩
    · exact .inl rfl
  have hd : Xsd.Count 'D' (if tdDays d ≠ 0 then intText (tdDays d) ++ ['D'] else []) := by
    split
    · have : 0 ≤ tdDays d := by unfold tdDays; exact Int.ediv_nonneg h (by decide)
      rw [intText, if_neg (by omega)]
      exact .inr ⟨_, digits_natText _, rfl⟩
    · exact .inl rfl
  refine .inl ⟨[], [], [], _, if tdSeconds d / 3600 ≠ 0 ∨ tdSeconds d % 3600 / 60 ≠ 0 ∨ tdSeconds d % 3600 % 60 ≠ 0 then ['T'] else [], _, _, _,
    .inl rfl, .inl rfl, .inl rfl, hd, ?_, hc 'H' (tdSeconds d / 3600) (tdSeconds d / 3600 ≠ 0),
    hc 'M' (tdSeconds d % 3600 / 60) (tdSeconds d % 3600 / 60 ≠ 0), hc 'S' (tdSeconds d % 3600 % 60) (tdSeconds d % 3600 % 60 ≠ 0), ?_⟩
  · split
    · exact .inr rfl
    · exact .inl rfl
  · simp only [timedeltaformat, List.nil_append, List.append_assoc, List.cons_append]

theorem reads_duration {d : Int} (h : 0 ≤ d) : Reads lib .timedeltaformat (.timedelta d) Xsd.IsDuration :=
  reads_safe rfl ⟨_, rfl, rfl⟩ (by simp [timedeltaformat]) (timedeltaformat_safe d) (isDuration_format h)

theorem spans_nonneg {d : Int} (h : Spans d) : 0 ≤ d := by
  obtain ⟨s, rfl, h0, -⟩ := h
  omega

theorem isMoment_format {us : Int} (h : Datable us) : Xsd.IsMoment (datetimeformat (DateTime.ofMicros us)) := by
  obtain ⟨hv, -⟩ := datable_valid us h
  have hd := h.1
  clear h
  generalize DateTime.ofMicros us = d at *
  obtain ⟨v1, v2, v3, v4, v5, v6, v7, v8, v9, v10⟩ := hv
  have hm : monthLength d.year d.month ≤ 31 := by
    unfold monthLength
    split <;> first | omega | (split <;> omega)
  refine ⟨padText 4 d.year, padText 2 d.month, padText 2 d.day, padText 2 d.hour, padText 2 d.minute, padText 2 d.second, '.' :: padText 6 d.micro, ['Z'],
    padText_digits 4 _ (by omega) (by omega), padText_digits 2 _ (by omega) (by omega), padText_digits 2 _ (by omega) (by omega),
    padText_digits 2 _ (by omega) (by omega), padText_digits 2 _ (by omega) (by omega), padText_digits 2 _ (by omega) (by omega),
    .inr ⟨padText 6 d.micro, ?_, rfl⟩, .inr rfl, ?_, ?_⟩
  · have := padText_digits 6 d.micro (by omega) (by omega)
    exact ⟨by intro e; rw [e] at this; simp [digits] at this, this.2⟩
  · simp only [number_padText]
    exact ⟨v1, v2, v3, v4, v5, v6, v7, v8, v9, by omega⟩
  · rw [collapse_safe (datetimeformat_safe d)]
    simp only [datetimeformat, natText_year d.year hd v2, List.append_assoc, List.cons_append, List.nil_append]

theorem reads_datetime {us : Int} (h : Datable us) : Reads lib .datetimeformat (.datetime us) Xsd.IsMoment :=
  reads_safe rfl ⟨_, rfl, rfl⟩ (by simp [datetimeformat]) (datetimeformat_safe _) (isMoment_format h)

end Openleadr
