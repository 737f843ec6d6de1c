import Verif.Lemmas.Duration
/-!
C01 Durations survive the wire. C02 Negative durations survive the wire. C03 Duration texts are read according to RFC 5545.
-/
namespace Openleadr
open Spec

/-- **C03** (date/time form): a duration text means sign · (365·86400·Y + 30·86400·M + 86400·D + 3600·H + 60·M + S) seconds,
    whatever parts are present and however many leading zeros are written;
    it is refused (with `OverflowError`) exactly when a timedelta cannot hold it. -/
theorem c03_duration_text_meaning (d : DateDuration) :
    parseDuration d.text =
      if inTimedeltaRange d.seconds then .ok (1000000 * d.seconds) else .error .overflowError := by
  rw [parseDuration, durationMatch_dateText]
  obtain ⟨sg, y, m, dd, t⟩ := d
  have hsum : ((groupInt none * 7 + (groupInt (dd.map Num.text) + 365 * groupInt (y.map Num.text)
        + 30 * groupInt (m.map Num.text))) * 86400
        + groupInt ((t.bind (·.hours)).map Num.text) * 3600 + groupInt ((t.bind (·.minutes)).map Num.text) * 60
        + groupInt ((t.bind (·.seconds)).map Num.text) : Nat)
      = DateDuration.magnitude ⟨sg, y, m, dd, t⟩ := by
    simp only [groupInt_part, DateDuration.magnitude]
    cases t <;> simp [groupInt, val] <;> omega
  simp only [hsum, mkTimedelta_secs]
  generalize hM : DateDuration.magnitude ⟨sg, y, m, dd, t⟩ = M
  have hneg : (-1 * (usPerSec * (M : Int))) = usPerSec * (-(M : Int)) := by simp only [usPerSec]; omega
  cases sg with
  | minus =>
    simp only [DateDuration.seconds, hM, Sign.factor]
    by_cases h1 : inTimedeltaRange (M : Int)
    · simp only [h1, if_true, hneg, mkTimedelta_secs]
      have e : -1 * (M : Int) = -(M : Int) := by omega
      rw [e]; rfl
    · have h2 : ¬ inTimedeltaRange (-(M : Int)) := by
        simp only [inTimedeltaRange] at *; omega
      have h3 : ¬ inTimedeltaRange (-1 * (M : Int)) := by simpa using h2
      simp [h1, h2]
  | none => simp [DateDuration.seconds, hM, Sign.factor]; split <;> simp_all [usPerSec]
  | plus => simp [DateDuration.seconds, hM, Sign.factor]; split <;> simp_all [usPerSec]

/-- **C03**: a text is accepted only if it starts with an optional sign and `P`, or with digits and `W`;
    every other text is refused with `ValueError`. -/
theorem c03_other_texts_refused (t : Text)
    (hP : ∀ (sg : Sign) (r : Text), t ≠ sg.text ++ 'P' :: r)
    (hW : ∀ (ds r : Text), ds ≠ [] → (∀ c ∈ ds, c.isDigit) → t ≠ ds ++ 'W' :: r) :
    parseDuration t = .error .valueError := by
  have hg : ∀ w r, optGroup 'W' t = (some w, r) → False := by
    intro w r h
    unfold optGroup at h
    split at h
    · simp at h
    · rename_i c' rest heq
      split at h
      · rename_i hc
        refine hW (t.takeWhile Char.isDigit) rest hc.2 (fun c hc => ?_) ?_
        · exact List.all_eq_true.mp (List.all_takeWhile (p := Char.isDigit) (l := t)) c hc
        · rw [← hc.1, ← heq, List.takeWhile_append_dropWhile]
      · simp at h
  have hm : durationMatch t = none := by
    unfold durationMatch
    split
    · rename_i sgn s h
      unfold optSign at h
      split at h
      · simp only [Prod.mk.injEq] at h; exact absurd (by rw [h.2]; rfl) (hP .plus s)
      · simp only [Prod.mk.injEq] at h; exact absurd (by rw [h.2]; rfl) (hP .minus s)
      · simp only [Prod.mk.injEq] at h; exact absurd (by rw [h.2]; rfl) (hP .none s)
    · split
      · rename_i w r h; exact (hg w r h).elim
      · rfl
  simp [parseDuration, hm]

/-- non-vacuity: `10 minutes` and the empty text are refused. -/
example : parseDuration "10 minutes".toList = .error .valueError ∧ parseDuration [] = .error .valueError := by decide

/-- non-vacuity: `-P1Y02DT05M` means −(365+2) days − 300 s. -/
example : DateDuration.text ⟨.minus, some ⟨0, 1⟩, none, some ⟨1, 2⟩, some ⟨none, some ⟨1, 5⟩, none⟩⟩ = "-P1Y02DT05M".toList
    ∧ DateDuration.seconds ⟨.minus, some ⟨0, 1⟩, none, some ⟨1, 2⟩, some ⟨none, some ⟨1, 5⟩, none⟩⟩ = -31709100
    ∧ inTimedeltaRange (-31709100) := by decide

/-- **C03, refuted for the week form**: every RFC 5545 week duration of a positive number of weeks is accepted but read as zero. -/
theorem c03_week_form_violated (d : WeekDuration) (hpos : 0 < d.weeks.val) :
    parseDuration d.text = .ok 0 ∧ d.seconds ≠ 0 := by
  obtain ⟨sg, n⟩ := d
  constructor
  · have hno : ∀ c, c ≠ 'W' → NoGroup c (n.text ++ ['W']) := fun c hc =>
      noGroup_num c 'W' (by decide) (Ne.symm hc) n []
    have hskip : skipT (n.text ++ ['W']) = n.text ++ ['W'] := by
      cases h : n.text with
      | nil => exact absurd h (num_text_ne_nil n)
      | cons a l =>
        have ha := num_text_digits n a (by simp [h])
        simp only [List.cons_append, skipT]
        split
        · rename_i heq; simp only [List.cons.injEq] at heq; rw [heq.1] at ha; exact absurd ha (by decide)
        · rfl
    have e : WeekDuration.text ⟨sg, n⟩ = sg.text ++ 'P' :: (n.text ++ ['W']) := by simp [WeekDuration.text]
    rw [e]
    exact parseDuration_nothing sg _ hskip (fun c hc => hno c (by rintro rfl; revert hc; decide))
  · simp only [WeekDuration.seconds] at *
    cases sg <;> simp only [Sign.factor] <;> omega

/-- non-vacuity: `P2W` is a week duration of 1209600 seconds. -/
example : WeekDuration.text ⟨.none, ⟨0, 2⟩⟩ = "P2W".toList ∧ WeekDuration.seconds ⟨.none, ⟨0, 2⟩⟩ = 1209600
    ∧ parseDuration "P2W".toList = .ok 0 := by decide

/-- **C01** (all non-negative timedeltas): the value parsed from the formatted text is the duration without its fraction of a second. -/
theorem c01_duration_truncates (d : Int) (h0 : 0 ≤ d) (hmax : d ≤ maxTimedelta) :
    parseDuration (timedeltaformat d) = .ok (1000000 * (d / 1000000)) := by
  rw [timedeltaformat_eq_printed d h0, c03_duration_text_meaning, printed_seconds]
  have : inTimedeltaRange (((d / 1000000).toNat : Nat) : Int) := by
    simp only [inTimedeltaRange, maxTimedelta] at *; omega
  rw [if_pos this]
  congr 1; omega

/-- **C01**: every non-negative whole number of seconds up to the largest timedelta survives formatting and parsing. -/
theorem c01_duration_round_trip (secs : Int) (h0 : 0 ≤ secs) (hmax : 1000000 * secs ≤ maxTimedelta) :
    parseDuration (timedeltaformat (1000000 * secs)) = .ok (1000000 * secs) := by
  rw [c01_duration_truncates _ (by omega) hmax]; congr 1; omega

/-- non-vacuity: one day, one hour, one second. -/
example : timedeltaformat (1000000 * 90001) = "P1DT1H1S".toList ∧ 1000000 * 90001 ≤ maxTimedelta := by decide

/-- The same on Python values: `parse_duration(timedeltaformat(v)) == v`, and parsing a value that is already a timedelta
    does not change it. -/
theorem c01_value_round_trip (secs : Int) (h0 : 0 ≤ secs) (hmax : 1000000 * secs ≤ maxTimedelta) :
    parseDurationV (timedeltaformatV (.timedelta (1000000 * secs))) = .ok (.timedelta (1000000 * secs))
    ∧ parseDurationV (.timedelta (1000000 * secs)) = .ok (.timedelta (1000000 * secs)) := by
  constructor
  · simp [parseDurationV, timedeltaformatV, c01_duration_round_trip secs h0 hmax, Except.map]
  · rfl

/-- **C02, refuted for every negative duration**: the text of a negative duration is accepted when parsed, but read as zero. -/
theorem c02_negative_duration_violated (d : Int) (hneg : d < 0) :
    parseDuration (timedeltaformat d) = .ok 0 := by
  have hd : tdDays d < 0 := by simp only [tdDays, usPerDay]; omega
  have hP : ∃ r, timedeltaformat d = 'P' :: '-' :: r := by
    have hne : tdDays d ≠ 0 := by omega
    simp only [timedeltaformat, if_pos hne, intText, if_pos hd]
    simp
  obtain ⟨r, hr⟩ := hP
  rw [hr]
  exact parseDuration_nothing .none ('-' :: r) rfl (fun c _ => noGroup_cons c '-' (by decide) r)

/-- non-vacuity: minus one second is written `P-1DT23H59M59S` and comes back as zero. -/
example : timedeltaformat (-1000000) = "P-1DT23H59M59S".toList ∧ parseDuration (timedeltaformat (-1000000)) = .ok 0 := by decide

end Openleadr
