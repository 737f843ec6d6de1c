import Verif.Lemmas.DateTime
/-! C04 Timestamps survive the wire. -/
namespace Openleadr
open Spec

/-- **C04** (reading): a text of the form `YYYY-MM-DDThh:mm:ss[.]fractionZ…` is read as the instant it denotes, truncated to
    microseconds, whatever the number of fraction digits; it is refused with `ValueError` exactly when it is not a date. -/
theorem c04_timestamp_meaning (t : TimestampText) (h : t.WellFormed) :
    (validDateTime (number t.year) (number t.month) (number t.day) (number t.hour) (number t.minute) (number t.second)
        (microsOfFraction t.fraction) →
      parseDatetime t.text = .ok (.dt ⟨number t.year, number t.month, number t.day, number t.hour, number t.minute,
        number t.second, microsOfFraction t.fraction⟩)) ∧
    (¬ validDateTime (number t.year) (number t.month) (number t.day) (number t.hour) (number t.minute) (number t.second)
        (microsOfFraction t.fraction) → parseDatetime t.text = .error .valueError) := by
  rw [parseDatetime, datetimeMatch_text t h]
  simp only [micro_eq t.fraction h.fraction, show intOfDigits = number from rfl]
  constructor
  · intro hv
    rw [if_pos ((valid_iff ..).mpr hv)]
  · intro hv
    rw [if_neg (fun h => hv ((valid_iff ..).mp h))]

/-- **C04**: a text that is not of that form is handed back unchanged. -/
theorem c04_other_text_unchanged (s : Text) (h : ∀ t : TimestampText, t.WellFormed → s ≠ t.text) :
    parseDatetime s = .ok (.unchanged s) := by
  unfold parseDatetime
  split
  · rename_i g1 g2 g3 g4 g5 g6 g7 hm
    obtain ⟨t, ht, he⟩ := text_of_datetimeMatch s _ hm
    exact absurd he (h t ht)
  · rfl

/-- **C04** (round trip): every valid UTC timestamp of the years 1000 to 9999 is read back exactly, to the microsecond. -/
theorem c04_timestamp_round_trip (d : DateTime) (hy : 1000 ≤ d.year)
    (hv : validDateTime d.year d.month d.day d.hour d.minute d.second d.micro) :
    parseDatetime (datetimeformat d) = .ok (.dt d) := by
  obtain ⟨y, mo, dd, hh, mi, s, us⟩ := d
  obtain ⟨h1, h2, h3, h4, h5, h6, h7, h8, h9, h10⟩ := hv
  simp only at *
  have hday : dd ≤ 31 := by
    refine Nat.le_trans h6 ?_
    unfold monthLength; split <;> (try split) <;> omega
  let t : TimestampText := ⟨padText 4 y, padText 2 mo, padText 2 dd, padText 2 hh, padText 2 mi, padText 2 s, true,
    padText 6 us, []⟩
  have ht : t.WellFormed := ⟨padText_digits _ _ (by omega) (by omega), padText_digits _ _ (by omega) (by omega),
    padText_digits _ _ (by omega) (by omega), padText_digits _ _ (by omega) (by omega),
    padText_digits _ _ (by omega) (by omega), padText_digits _ _ (by omega) (by omega),
    (padText_digits _ _ (by omega) (by omega)).2⟩
  have he : datetimeformat ⟨y, mo, dd, hh, mi, s, us⟩ = t.text := by
    simp [datetimeformat, TimestampText.text, t, natText_year y hy h2]
  have hus : microsOfFraction t.fraction = us := by
    simp only [microsOfFraction, t, number_padText, (padText_digits 6 us (by omega) (by omega)).1]
    omega
  have := (c04_timestamp_meaning t ht).1
  rw [hus] at this
  simp only [t, number_padText] at this
  rw [he]
  exact this ⟨h1, h2, h3, h4, h5, h6, h7, h8, h9, h10⟩

/-- non-vacuity: a leap day with microseconds. -/
example : datetimeformat ⟨2024, 2, 29, 23, 59, 59, 1⟩ = "2024-02-29T23:59:59.000001Z".toList
    ∧ validDateTime 2024 2 29 23 59 59 1 := by
  constructor
  · decide
  · unfold validDateTime; decide

/-- non-vacuity: nine fraction digits are truncated, the 30th of February is refused, a numeric offset is left alone. -/
example : parseDatetime "2021-01-01T00:00:00.123456789Z".toList = .ok (.dt ⟨2021, 1, 1, 0, 0, 0, 123456⟩)
    ∧ parseDatetime "2021-02-30T00:00:00Z".toList = .error .valueError
    ∧ parseDatetime "2021-01-01T00:00:00+01:00".toList = .ok (.unchanged "2021-01-01T00:00:00+01:00".toList) := by decide

end Openleadr
