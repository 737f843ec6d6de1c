import Verif.Model.Duration
import Verif.Spec.Duration
/-! Helper lemmas for the duration parser and formatter. -/
namespace Openleadr
open Spec

theorem num_text_digits (n : Num) : ∀ c ∈ n.text, c.isDigit := by
  intro c hc
  simp only [Num.text, List.mem_append] at hc
  rcases hc with hc | hc
  · rw [List.eq_of_mem_replicate hc]; decide
  · exact Nat.isDigit_of_mem_toDigits (by omega) (by omega) hc

theorem num_text_ne_nil (n : Num) : n.text ≠ [] := by
  simp [Num.text, Nat.toDigits_ne_nil]

theorem intOfDigits_num (n : Num) : intOfDigits n.text = n.val := by
  simp [intOfDigits, Num.text, Nat.ofDigitChars_append]

theorem takeWhile_digits (ds r : List Char) (h : ∀ c ∈ ds, c.isDigit) (hr : ∀ c r', r = c :: r' → c.isDigit = false) :
    (ds ++ r).takeWhile Char.isDigit = ds ∧ (ds ++ r).dropWhile Char.isDigit = r := by
  induction ds with
  | nil =>
    cases r with
    | nil => simp
    | cons c r' => simp [hr c r' rfl]
  | cons d ds ih =>
    have hd := h d (by simp)
    have := ih (fun c hc => h c (by simp [hc]))
    simp [hd, this]

/-- No optional group with letter `c` matches at the start of `s`. -/
def NoGroup (c : Char) (s : Text) : Prop := optGroup c s = (none, s)

theorem optGroup_num (c : Char) (hc : c.isDigit = false) (n : Num) (r : Text) :
    optGroup c (n.text ++ c :: r) = (some n.text, r) := by
  have h := takeWhile_digits n.text (c :: r) (num_text_digits n) (by intro _ _ h; cases h; exact hc)
  simp [optGroup, h.1, h.2, num_text_ne_nil]

theorem noGroup_num (c c' : Char) (hc : c'.isDigit = false) (hne : c' ≠ c) (n : Num) (r : Text) :
    NoGroup c (n.text ++ c' :: r) := by
  have h := takeWhile_digits n.text (c' :: r) (num_text_digits n) (by intro _ _ h; cases h; exact hc)
  simp [NoGroup, optGroup, h.2, hne]

theorem noGroup_nil (c : Char) : NoGroup c [] := rfl

theorem noGroup_cons (c c' : Char) (hc : c'.isDigit = false) (r : Text) : NoGroup c (c' :: r) := by
  simp [NoGroup, optGroup, hc]

theorem optGroup_part (c : Char) (hc : c.isDigit = false) (n : Option Num) (r : Text) (hr : NoGroup c r) :
    optGroup c (part n c ++ r) = (n.map Num.text, r) := by
  cases n with
  | none => exact hr
  | some n => simpa [part] using optGroup_num c hc n r

theorem noGroup_part (c c' : Char) (hc : c'.isDigit = false) (hne : c' ≠ c) (n : Option Num) (r : Text)
    (hr : NoGroup c r) : NoGroup c (part n c' ++ r) := by
  cases n with
  | none => exact hr
  | some n => simpa [part] using noGroup_num c c' hc hne n r

theorem groupInt_part (n : Option Num) : groupInt (n.map Num.text) = val n := by
  cases n with
  | none => rfl
  | some n => exact intOfDigits_num n

/-- The text of the optional time part. -/
def timeText (t : Option TimePart) : Text :=
  match t with
  | none => []
  | some t => ['T'] ++ part t.hours 'H' ++ part t.minutes 'M' ++ part t.seconds 'S'

theorem noGroup_timeText (c : Char) (t : Option TimePart) : NoGroup c (timeText t) := by
  cases t with
  | none => rfl
  | some t => exact noGroup_cons c 'T' (by decide) _

theorem optSign_text (sg : Sign) (r : Text) :
    optSign (sg.text ++ 'P' :: r) =
      (match sg with | .none => none | .plus => some '+' | .minus => some '-', 'P' :: r) := by
  cases sg <;> rfl

theorem durationMatch_dateText (d : DateDuration) :
    durationMatch d.text =
      some (match d.sign with | .none => none | .plus => some '+' | .minus => some '-',
        [d.years.map Num.text, d.months.map Num.text, d.days.map Num.text,
         (d.time.bind (·.hours)).map Num.text, (d.time.bind (·.minutes)).map Num.text,
         (d.time.bind (·.seconds)).map Num.text, none]) := by
  obtain ⟨sg, y, m, dd, t⟩ := d
  have e : DateDuration.text ⟨sg, y, m, dd, t⟩ =
      sg.text ++ 'P' :: (part y 'Y' ++ (part m 'M' ++ (part dd 'D' ++ timeText t))) := by
    cases t <;> simp [DateDuration.text, timeText]
  have h1 := optGroup_part 'Y' (by decide) y (part m 'M' ++ (part dd 'D' ++ timeText t))
    (noGroup_part _ _ (by decide) (by decide) _ _ (noGroup_part _ _ (by decide) (by decide) _ _ (noGroup_timeText _ _)))
  have h2 := optGroup_part 'M' (by decide) m (part dd 'D' ++ timeText t)
    (noGroup_part _ _ (by decide) (by decide) _ _ (noGroup_timeText _ _))
  have h3 := optGroup_part 'D' (by decide) dd (timeText t) (noGroup_timeText _ _)
  rw [e, durationMatch, optSign_text]
  simp only [h1, h2, h3]
  cases t with
  | none => rfl
  | some t =>
    obtain ⟨h, mi, s⟩ := t
    have h4 := optGroup_part 'H' (by decide) h (part mi 'M' ++ (part s 'S' ++ []))
      (noGroup_part _ _ (by decide) (by decide) _ _ (noGroup_part _ _ (by decide) (by decide) _ _ (noGroup_nil _)))
    have h5 := optGroup_part 'M' (by decide) mi (part s 'S' ++ [])
      (noGroup_part _ _ (by decide) (by decide) _ _ (noGroup_nil _))
    have h6 := optGroup_part 'S' (by decide) s [] (noGroup_nil _)
    simp only [List.append_nil] at h4 h5 h6
    simp [timeText, skipT, h4, h5, h6]

/-- When no group matches right after the `P`, all groups are empty. -/
theorem parseDuration_nothing (sg : Sign) (s : Text) (hskip : skipT s = s)
    (hno : ∀ c, c ∈ ['Y', 'M', 'D', 'H', 'S'] → NoGroup c s) : parseDuration (sg.text ++ 'P' :: s) = .ok 0 := by
  have hY : optGroup 'Y' s = (none, s) := hno _ (by simp)
  have hM : optGroup 'M' s = (none, s) := hno _ (by simp)
  have hD : optGroup 'D' s = (none, s) := hno _ (by simp)
  have hH : optGroup 'H' s = (none, s) := hno _ (by simp)
  have hS : optGroup 'S' s = (none, s) := hno _ (by simp)
  have hm : durationMatch (sg.text ++ 'P' :: s) =
      some (match sg with | .none => none | .plus => some '+' | .minus => some '-',
        [none, none, none, none, none, none, none]) := by
    rw [durationMatch, optSign_text]
    simp [hY, hM, hD, hskip, hH, hS]
  rw [parseDuration, hm]
  cases sg <;> decide

theorem mkTimedelta_secs (s : Int) :
    mkTimedelta (usPerSec * s) = if inTimedeltaRange s then .ok (usPerSec * s) else .error .overflowError := by
  have : (-999999999 ≤ tdDays (usPerSec * s) ∧ tdDays (usPerSec * s) ≤ 999999999) ↔ inTimedeltaRange s := by
    simp only [tdDays, usPerSec, usPerDay, inTimedeltaRange]; omega
  simp only [mkTimedelta, this]

/-- The grammar value that the formatter prints for a non-negative timedelta. -/
def printed (secs : Nat) : DateDuration :=
  let o (n : Nat) : Option Num := if n = 0 then none else some ⟨0, n⟩
  { sign := .none, years := none, months := none, days := o (secs / 86400)
    time := if secs % 86400 = 0 then none
            else some ⟨o (secs % 86400 / 3600), o (secs % 3600 / 60), o (secs % 60)⟩ }

theorem timedeltaformat_eq_printed (d : Int) (h : 0 ≤ d) :
    timedeltaformat d = (printed (d / 1000000).toNat).text := by
  have h1 : tdDays d = (((d / 1000000).toNat / 86400 : Nat) : Int) := by simp only [tdDays, usPerDay]; omega
  have h2 : tdSeconds d = (d / 1000000).toNat % 86400 := by simp only [tdSeconds, usPerDay, usPerSec]; omega
  generalize (d / 1000000).toNat = s at *
  simp only [timedeltaformat, h1, h2, printed, DateDuration.text, Sign.text, part, intText, natText]
  have e1 : s % 86400 % 3600 / 60 = s % 3600 / 60 := by omega
  have e2 : s % 86400 % 3600 % 60 = s % 60 := by omega
  have e4 : (((s / 86400 : Nat) : Int) ≠ 0) ↔ ¬ (s / 86400 = 0) := by omega
  have e5 : ¬ (((s / 86400 : Nat) : Int) < 0) := by omega
  have e6 : ((s / 86400 : Nat) : Int).natAbs = s / 86400 := by omega
  simp only [e1, e2, e4, e5, e6, if_false]
  have e7 : (s % 86400 / 3600 ≠ 0 ∨ s % 3600 / 60 ≠ 0 ∨ s % 60 ≠ 0) ↔ ¬ (s % 86400 = 0) := by omega
  simp only [e7]
  have hz : s % 86400 = 0 → s % 86400 / 3600 = 0 ∧ s % 3600 / 60 = 0 ∧ s % 60 = 0 := by omega
  by_cases c1 : s / 86400 = 0 <;> by_cases c2 : s % 86400 = 0
  all_goals first
    | simp [c1, c2, hz c2, Num.text]
    | (by_cases c3 : s % 86400 / 3600 = 0 <;> by_cases c4 : s % 3600 / 60 = 0 <;> by_cases c5 : s % 60 = 0 <;>
        simp [c1, c2, c3, c4, c5, Num.text])

theorem printed_seconds (s : Nat) : (printed s).seconds = s := by
  simp only [printed, DateDuration.seconds, DateDuration.magnitude, Sign.factor]
  have hv : ∀ n : Nat, val (if n = 0 then none else some ⟨0, n⟩) = n := by
    intro n; split <;> simp_all [val]
  simp only [hv]
  by_cases h : s % 86400 = 0
  · simp [h, val]; omega
  · simp only [h, if_false, hv, show val none = 0 from rfl]; omega

end Openleadr
