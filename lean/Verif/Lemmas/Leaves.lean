import Verif.Lemmas.Flow
/-!
The values that are sent as one text, and what is read from that text.
-/
namespace Openleadr

/-- The characters of numbers, durations and timestamps. -/
def safeChar (c : Char) : Bool := c.isAlphanum || c = '-' || c = ':' || c = '.' || c = '+'

theorem safeChar_range (c : Char) (h : safeChar c = true) :
    (48 ≤ c.toNat ∧ c.toNat ≤ 58) ∨ (65 ≤ c.toNat ∧ c.toNat ≤ 90) ∨ (97 ≤ c.toNat ∧ c.toNat ≤ 122) ∨ c.toNat = 45 ∨ c.toNat = 46 ∨ c.toNat = 43 := by
  simp only [safeChar, Char.isAlphanum, Char.isAlpha, Char.isUpper, Char.isLower, Char.isDigit, Bool.or_eq_true, Bool.and_eq_true,
    decide_eq_true_eq] at h
  rcases h with (((((h | h) | h) | h) | h) | h) | h
  · have h1 : 65 ≤ c.toNat := h.1
    have h2 : c.toNat ≤ 90 := h.2
    omega
  · have h1 : 97 ≤ c.toNat := h.1
    have h2 : c.toNat ≤ 122 := h.2
    omega
  · have h1 : 48 ≤ c.toNat := h.1
    have h2 : c.toNat ≤ 57 := h.2
    omega
  all_goals subst h; simp

theorem safe_onWire (t : Text) (hne : t ≠ []) (h : ∀ c ∈ t, safeChar c = true) : OnWire (String.ofList t) := by
  have sp : ∀ c, safeChar c = true → isPySpace c = false := by
    intro c hc
    have hr := safeChar_range c hc
    cases e : isPySpace c with
    | false => rfl
    | true =>
      simp only [isPySpace, Bool.or_eq_true, Bool.and_eq_true, decide_eq_true_eq, beq_iff_eq] at e
      omega
  have nb : ∀ c, safeChar c = true → c ≠ ']' ∧ c ≠ '>' := by
    intro c hc
    have hr := safeChar_range c hc
    constructor <;> (rintro rfl; revert hr; decide)
  refine ⟨?_, ?_, ?_, ?_, ?_, ?_⟩
  · intro e
    apply hne
    rw [← String.toList_ofList (l := t), e]; rfl
  · intro c hc
    rw [String.toList_ofList] at hc
    exact sp c (h c (List.mem_of_head? hc))
  · intro c hc
    rw [String.toList_ofList] at hc
    exact sp c (h c (List.mem_of_getLast? hc))
  · intro c hc
    rw [String.toList_ofList] at hc
    have hr := safeChar_range c (h c hc)
    refine ⟨?_, ?_, ?_, ?_, ?_⟩
    · simp only [XmlAllowed]
      omega
    all_goals rintro rfl; revert hr; decide
  · intro c hc
    rw [String.toList_ofList] at hc
    exact nb c (h c (List.mem_of_head? hc))
  · intro a b e
    rw [String.toList_ofList] at e
    exact (nb ']' (h _ (by rw [e]; simp))).1 rfl

theorem digit_safe (c : Char) (h : c.isDigit = true) : safeChar c = true := by simp [safeChar, Char.isAlphanum, h]

theorem natText_ne (n : Nat) : natText n ≠ [] := by
  unfold natText
  simp [Nat.toDigits_ne_nil]

theorem intText_ne (i : Int) : intText i ≠ [] := by
  unfold intText; split
  · simp
  · exact natText_ne _

theorem intText_safe (i : Int) : ∀ c ∈ intText i, safeChar c = true := by
  intro c hc
  unfold intText at hc
  split at hc
  · simp only [List.mem_cons] at hc
    rcases hc with rfl | hc
    · decide
    · exact digit_safe c (natText_digits _ c hc)
  · exact digit_safe c (natText_digits _ c hc)

theorem timedeltaformat_safe (d : Int) : ∀ c ∈ timedeltaformat d, safeChar c = true := by
  intro c hc
  have hnat : ∀ (n : Nat) (x : Char), safeChar x = true → c ∈ natText n ++ [x] → safeChar c = true := by
    intro n x hx hc
    simp only [List.mem_append, List.mem_cons, List.not_mem_nil, or_false] at hc
    rcases hc with hc | rfl
    · exact digit_safe c (natText_digits _ c hc)
    · exact hx
  simp only [timedeltaformat, List.mem_append] at hc
  rcases hc with ((((hc | hc) | hc) | hc) | hc) | hc
  · simp only [List.mem_cons, List.not_mem_nil, or_false] at hc; subst hc; decide
  · split at hc
    · simp only [List.mem_append, List.mem_cons, List.not_mem_nil, or_false] at hc
      rcases hc with hc | rfl
      · exact intText_safe _ c hc
      · decide
    · simp at hc
  · split at hc
    · simp only [List.mem_cons, List.not_mem_nil, or_false] at hc; subst hc; decide
    · simp at hc
  all_goals
    split at hc
    · exact hnat _ _ (by decide) hc
    · simp at hc

theorem padText_safe (w n : Nat) : ∀ c ∈ padText w n, safeChar c = true := by
  intro c hc
  simp only [padText, List.mem_append, List.mem_replicate] at hc
  rcases hc with ⟨-, rfl⟩ | hc
  · decide
  · exact digit_safe c (natText_digits _ c hc)

theorem datetimeformat_safe (d : DateTime) : ∀ c ∈ datetimeformat d, safeChar c = true := by
  intro c hc
  simp only [datetimeformat, List.mem_append, List.mem_cons, List.not_mem_nil, or_false] at hc
  rcases hc with (((((((((((((hc | rfl) | hc) | rfl) | hc) | rfl) | hc) | rfl) | hc) | rfl) | hc) | rfl) | hc) | rfl)
  all_goals first
    | decide
    | exact padText_safe _ _ c hc
    | exact digit_safe c (natText_digits _ c hc)

/-- A value that is put into the text and read from it again under this key. -/
structure Wired (lib : Lib) (key : String) (filter : Filter) (v x : Value) : Prop where
  leaf : isLeaf v = true
  given : v ≠ .none
  text : ∃ w s, applyFilter filter (some v) = .ok w ∧ pyText lib w = s ∧ OnWire s ∧ leafValue lib key (.str s) = .ok x
  read : isLeaf x = true

theorem Wired.of {lib : Lib} {key : String} {filter : Filter} {v x : Value} (w : Option Value) (s : String) (leaf : isLeaf v = true)
    (given : v ≠ .none) (h1 : applyFilter filter (some v) = .ok w) (h2 : pyText lib w = s) (h3 : OnWire s)
    (h4 : leafValue lib key (.str s) = .ok x) (read : isLeaf x = true) : Wired lib key filter v x := ⟨leaf, given, ⟨w, s, h1, h2, h3, h4⟩, read⟩

/-- Keys of texts. -/
def textKey (k : String) : Bool := !(durationKeys.contains k) && !(isDateKey k)

theorem leafValue_text (lib : Lib) (k s : String) (h : textKey k = true) :
    leafValue lib k (.str s) = if s = "true" ∨ s = "false" then .ok (.bool (s = "true")) else plainText lib s := by
  simp only [textKey, Bool.and_eq_true, Bool.not_eq_true'] at h
  simp only [leafValue, h.1, h.2, Bool.false_eq_true, if_false, Bool.or_eq_true, decide_eq_true_eq]

/-- Ordinary texts. -/
theorem wired_text {lib : Lib} {k s : String} (hs : Ordinary lib s) (hk : textKey k = true) : Wired lib k .plain (.str s) (.str s) := by
  refine .of (some (.str s)) s rfl (by simp) rfl rfl hs.toOnWire ?_ rfl
  rw [leafValue_text lib k s hk, if_neg (by simp [hs.notTrue, hs.notFalse]), hs.plain]

theorem plainText_int {lib : Lib} (hl : lib.Sound) (i : Int) : plainText lib (String.ofList (intText i)) = .ok (.int i) := by
  have : looksInt lib (intText i) = true := by
    have hd : ∀ n, (natText n).all lib.isDigit = true := by
      intro n
      rw [List.all_eq_true]
      exact fun c hc => hl.digits c (natText_digits n c hc)
    unfold intText
    split
    · simp [looksInt, natText_ne, hd]
    · unfold looksInt
      split
      · rename_i r e
        have := natText_digits _ '-' (by rw [e]; simp)
        exact absurd this (by decide)
      · simp [natText_ne, hd]
  simp [plainText, String.toList_ofList, this, hl.ints]

theorem intText_words (i : Int) : String.ofList (intText i) ≠ "true" ∧ String.ofList (intText i) ≠ "false" := by
  have key : ∀ s : String, 't' ∈ s.toList ∨ 'f' ∈ s.toList → String.ofList (intText i) ≠ s := by
    intro s hs e
    have e' : intText i = s.toList := by rw [← e, String.toList_ofList]
    rw [← e'] at hs
    have : ∀ c ∈ intText i, c = '-' ∨ c.isDigit = true := by
      intro c hc
      unfold intText at hc
      split at hc
      · simp only [List.mem_cons] at hc
        rcases hc with rfl | hc
        · exact Or.inl rfl
        · exact Or.inr (natText_digits _ c hc)
      · exact Or.inr (natText_digits _ c hc)
    rcases hs with hs | hs
    · have := this _ hs; revert this; decide
    · have := this _ hs; revert this; decide
  exact ⟨key _ (by decide), key _ (by decide)⟩

/-- Integers. -/
theorem wired_int {lib : Lib} (hl : lib.Sound) {k : String} (i : Int) (hk : textKey k = true) : Wired lib k .plain (.int i) (.int i) := by
  refine .of (some (.int i)) (String.ofList (intText i)) rfl (by simp) rfl rfl (safe_onWire _ (intText_ne i) (intText_safe i)) ?_ rfl
  rw [leafValue_text lib k _ hk, if_neg (by simp [intText_words]), plainText_int hl]

/-- Booleans. -/
theorem wired_bool {lib : Lib} {k : String} (b : Bool) (hk : textKey k = true) : Wired lib k .booleanformat (.bool b) (.bool b) := by
  have h1 : OnWire "true" := safe_onWire "true".toList (by decide) (by decide)
  have h2 : OnWire "false" := safe_onWire "false".toList (by decide) (by decide)
  cases b with
  | true => exact .of (some (.str "true")) "true" rfl (by simp) rfl rfl h1 (by rw [leafValue_text lib k _ hk]; simp) rfl
  | false => exact .of (some (.str "false")) "false" rfl (by simp) rfl rfl h2 (by rw [leafValue_text lib k _ hk]; simp) rfl

/-- Timestamps. -/
theorem wired_datetime {lib : Lib} {k : String} {us : Int} (h : Datable us) (hk : (!(durationKeys.contains k) && isDateKey k) = true) :
    Wired lib k .datetimeformat (.datetime us) (.datetime us) := by
  simp only [Bool.and_eq_true, Bool.not_eq_true'] at hk
  refine .of (some (.str (String.ofList (datetimeformat (DateTime.ofMicros us))))) (String.ofList (datetimeformat (DateTime.ofMicros us))) rfl (by simp) rfl rfl
    (safe_onWire _ ?_ (datetimeformat_safe _)) ?_ rfl
  · simp [datetimeformat]
  · obtain ⟨d, h1, h2⟩ := datetime_wire us h
    simp only [leafValue, hk.1, hk.2, Bool.false_eq_true, if_false, if_true, parseDatetimeV, String.toList_ofList, h1, h2]

/-- Durations. -/
theorem wired_duration {lib : Lib} {k : String} {us : Int} (h : Spans us) (hk : durationKeys.contains k = true) :
    Wired lib k .timedeltaformat (.timedelta us) (.timedelta us) := by
  obtain ⟨secs, rfl, h0, hm⟩ := h
  refine .of (some (.str (String.ofList (timedeltaformat (1000000 * secs))))) (String.ofList (timedeltaformat (1000000 * secs))) rfl (by simp) rfl rfl
    (safe_onWire _ ?_ (timedeltaformat_safe _)) ?_ rfl
  · simp [timedeltaformat]
  · simp only [leafValue, hk, if_true, parseDurationV, String.toList_ofList, c01_duration_round_trip secs h0 hm]
    rfl

end Openleadr
