import Verif.Model.Calendar
import Verif.Props.Timestamps
import Verif.Model.Replay
/-! Instants survive the way to calendar fields and back. -/
namespace Openleadr
open Spec

theorem findYear_sum (fuel : Nat) : ∀ y n, 1 ≤ y →
    yearStart (findYear fuel y n).1 + (findYear fuel y n).2 = yearStart y + n ∧ y ≤ (findYear fuel y n).1 ∧ (findYear fuel y n).1 ≤ y + fuel := by
  induction fuel with
  | zero => intro y n _; simp [findYear]
  | succ fuel ih =>
    intro y n hy
    simp only [findYear]
    split
    · simp
    · rename_i hn
      obtain ⟨h1, h2, h3⟩ := ih (y + 1) (n - daysInYear y) (by omega)
      refine ⟨?_, by omega, by omega⟩
      rw [h1]
      obtain ⟨k, rfl⟩ : ∃ k, y = k + 1 := ⟨y - 1, by omega⟩
      show yearStart (k + 2) + _ = _
      simp only [yearStart]
      omega

theorem findYear_lt (fuel : Nat) : ∀ y n, (findYear fuel y n).1 < y + fuel → (findYear fuel y n).2 < daysInYear (findYear fuel y n).1 := by
  induction fuel with
  | zero => intro y n h; simp [findYear] at h
  | succ fuel ih =>
    intro y n h
    simp only [findYear] at h ⊢
    split
    · assumption
    · rename_i hn
      rw [if_neg hn] at h
      exact ih _ _ (by omega)

theorem findMonth_sum (y fuel : Nat) : ∀ m n, 1 ≤ m →
    monthStart y (findMonth y fuel m n).1 + (findMonth y fuel m n).2 = monthStart y m + n ∧ m ≤ (findMonth y fuel m n).1 ∧
      (findMonth y fuel m n).1 ≤ m + fuel := by
  induction fuel with
  | zero => intro m n _; simp [findMonth]
  | succ fuel ih =>
    intro m n hm
    simp only [findMonth]
    split
    · simp
    · rename_i hn
      obtain ⟨h1, h2, h3⟩ := ih (m + 1) (n - daysInMonth y m) (by omega)
      refine ⟨?_, by omega, by omega⟩
      rw [h1]
      obtain ⟨k, rfl⟩ : ∃ k, m = k + 1 := ⟨m - 1, by omega⟩
      show monthStart y (k + 2) + _ = _
      simp only [monthStart]
      omega

theorem findMonth_lt (y : Nat) (fuel : Nat) : ∀ m n, (findMonth y fuel m n).1 < m + fuel →
    (findMonth y fuel m n).2 < daysInMonth y (findMonth y fuel m n).1 := by
  induction fuel with
  | zero => intro m n h; simp [findMonth] at h
  | succ fuel ih =>
    intro m n h
    simp only [findMonth] at h ⊢
    split
    · assumption
    · rename_i hn
      rw [if_neg hn] at h
      exact ih _ _ (by omega)

theorem months_sum (y : Nat) : monthStart y 12 + daysInMonth y 12 = daysInYear y := by
  simp only [monthStart, daysInMonth, daysInYear]
  by_cases h : isLeap y = true <;> simp [h]

/-- An instant of the years 1000 to 9999, for which timestamps are written with four digits. -/
def Datable (us : Int) : Prop := 1000 ≤ (DateTime.ofMicros us).year ∧ (DateTime.ofMicros us).year ≤ 9999

theorem daysInMonth_eq (y m : Nat) (h1 : 1 ≤ m) (h2 : m ≤ 12) : daysInMonth y m = monthLength y m := by
  have : (isLeap y = true) ↔ (y % 400 = 0 ∨ (y % 4 = 0 ∧ y % 100 ≠ 0)) := by
    simp only [isLeap, Bool.and_eq_true, beq_iff_eq, Bool.or_eq_true, bne_iff_ne, ne_eq]
    omega
  obtain rfl | rfl | rfl | rfl | rfl | rfl | rfl | rfl | rfl | rfl | rfl | rfl :
    m = 1 ∨ m = 2 ∨ m = 3 ∨ m = 4 ∨ m = 5 ∨ m = 6 ∨ m = 7 ∨ m = 8 ∨ m = 9 ∨ m = 10 ∨ m = 11 ∨ m = 12 := by omega
  all_goals simp [daysInMonth, monthLength, this]

theorem datable_valid (us : Int) (h : Datable us) :
    validDateTime (DateTime.ofMicros us).year (DateTime.ofMicros us).month (DateTime.ofMicros us).day (DateTime.ofMicros us).hour
      (DateTime.ofMicros us).minute (DateTime.ofMicros us).second (DateTime.ofMicros us).micro ∧ (DateTime.ofMicros us).toMicros = us := by
  obtain ⟨h1, h2⟩ := h
  simp only [DateTime.ofMicros] at h1 h2
  generalize hn : (us / usPerDay + (epochDays : Int)).toNat = n at h1 h2
  obtain ⟨ys, yl, yu⟩ := findYear_sum 9999 1 n (by omega)
  have ylt := findYear_lt 9999 1 n (by omega)
  have hbound : ∀ y, 1000 ≤ y → 0 < yearStart y := by
    intro y
    induction y with
    | zero => intro h; omega
    | succ y ih =>
      intro h
      cases y with
      | zero => omega
      | succ y =>
        simp only [yearStart, daysInYear]
        split <;> omega
  have hpos := hbound _ h1
  generalize hy : findYear 9999 1 n = yr at *
  obtain ⟨ms, ml, mu⟩ := findMonth_sum yr.1 11 1 yr.2 (by omega)
  have mlt : (findMonth yr.1 11 1 yr.2).2 < daysInMonth yr.1 (findMonth yr.1 11 1 yr.2).1 := by
    by_cases h12 : (findMonth yr.1 11 1 yr.2).1 < 12
    · exact findMonth_lt yr.1 11 1 yr.2 (by omega)
    · have e : (findMonth yr.1 11 1 yr.2).1 = 12 := by omega
      rw [e] at ms ⊢
      have := months_sum yr.1
      simp only [monthStart] at ms this
      omega
  generalize hm : findMonth yr.1 11 1 yr.2 = mo at *
  have hd : (us / usPerDay + (epochDays : Int)) = (n : Int) := by
    have : 0 < n := by simp only [yearStart] at ys; omega
    omega
  have ht0 : 0 ≤ us % usPerDay := Int.emod_nonneg _ (by decide)
  have ht1 : us % usPerDay < usPerDay := Int.emod_lt_of_pos _ (by decide)
  have hsplit : us = us / usPerDay * usPerDay + us % usPerDay := (Int.ediv_mul_add_emod us usPerDay).symm
  constructor
  · simp only [DateTime.ofMicros, hn, hy, hm, validDateTime]
    simp only [usPerDay] at ht0 ht1
    rw [← daysInMonth_eq _ _ (by omega) (by omega)]
    refine ⟨by omega, by omega, by omega, by omega, by omega, by omega, ?_, by omega, by omega, by omega⟩
    simp only [usPerDay]
    omega
  · simp only [DateTime.ofMicros, DateTime.toMicros, hn, hy, hm]
    have e1 : yearStart yr.1 + monthStart yr.1 mo.1 + (mo.2 + 1 - 1) = n := by
      simp only [yearStart, monthStart] at ys ms
      omega
    rw [e1, ← hd]
    generalize us % usPerDay = t at *
    generalize us / usPerDay = q at *
    simp only [usPerDay] at *
    generalize htt : t.toNat = tt
    have : t = (tt : Int) := by omega
    subst this
    rw [hsplit]
    omega

/-- Timestamps survive the wire, as instants. -/
theorem datetime_wire (us : Int) (h : Datable us) :
    ∃ d, parseDatetime (datetimeformat (DateTime.ofMicros us)) = .ok (.dt d) ∧ d.toMicros = us := by
  obtain ⟨hv, he⟩ := datable_valid us h
  exact ⟨_, c04_timestamp_round_trip _ h.1 hv, he⟩

theorem yearStart_eq (y : Nat) : yearStart (y + 1) = daysBeforeYear (y + 1) := by
  induction y with
  | zero => rfl
  | succ y ih =>
    have s4 : (y + 1) / 4 = y / 4 + if (y + 1) % 4 = 0 then 1 else 0 := by split <;> omega
    have s100 : (y + 1) / 100 = y / 100 + if (y + 1) % 100 = 0 then 1 else 0 := by split <;> omega
    have s400 : (y + 1) / 400 = y / 400 + if (y + 1) % 400 = 0 then 1 else 0 := by split <;> omega
    have m1 : (y + 1) % 400 = 0 → (y + 1) % 100 = 0 := by omega
    have m2 : (y + 1) % 100 = 0 → (y + 1) % 4 = 0 := by omega
    have l1 : y / 100 ≤ y / 4 := Nat.div_le_div_left (by omega) (by omega)
    simp only [yearStart, ih, daysBeforeYear, daysInYear, isLeap, Bool.and_eq_true, beq_iff_eq, Bool.or_eq_true, bne_iff_ne, ne_eq,
      Nat.add_sub_cancel, s4, s100, s400]
    generalize y / 4 = a at *
    generalize y / 100 = b at *
    generalize y / 400 = c at *
    by_cases h1 : (y + 1) % 4 = 0 <;> by_cases h2 : (y + 1) % 100 = 0 <;> by_cases h3 : (y + 1) % 400 = 0 <;>
      simp only [h1, h2, h3, if_true, if_false, not_true, not_false_iff, or_true, or_false, true_and, false_and, and_true] <;>
      first | omega | exact absurd (m1 h3) h2 | exact absurd (m2 h2) h1

theorem monthStart_eq (y m : Nat) : monthStart y (m + 1) = daysBeforeMonth y (m + 1) := by
  induction m with
  | zero => rfl
  | succ m ih =>
    simp only [monthStart, ih, daysBeforeMonth]
    rw [show m + 1 + 1 - 1 = m + 1 from rfl, List.range_succ, List.map_append, List.sum_append]
    simp

/-- The two ways to count instants (from 1970 here, from the day before year 1 for the replay protection) differ by a constant. -/
theorem toMicros_micros (d : DateTime) (hy : 1 ≤ d.year) (hm : 1 ≤ d.month) (hd : 1 ≤ d.day) :
    d.toMicros = d.micros - 62135683200000000 := by
  obtain ⟨k, hk⟩ : ∃ k, d.year = k + 1 := ⟨d.year - 1, by omega⟩
  obtain ⟨j, hj⟩ : ∃ j, d.month = j + 1 := ⟨d.month - 1, by omega⟩
  simp only [DateTime.toMicros, DateTime.micros, hk, hj, yearStart_eq, monthStart_eq, usPerDay, epochDays]
  omega

/-- non-vacuity -/
example : Datable 1577836800000000 ∧ DateTime.ofMicros 1577836800000000 = ⟨2020, 1, 1, 0, 0, 0, 0⟩ := by
  unfold Datable
  decide +kernel

end Openleadr
