import Verif.Model.Cron
import Verif.Spec.Cron
/-! Helper lemmas for schedules. -/
namespace Openleadr
open Spec

/-- A multiple of `u * n`, seen through a counter with modulus `m` that counts units of `u`. -/
theorem dvd_unit (u n m t : Nat) (hu : 0 < u) (hnm : n ∣ m) :
    u * n ∣ t ↔ t % u = 0 ∧ t / u % m % n = 0 := by
  constructor
  · rintro ⟨k, rfl⟩
    rw [Nat.mul_assoc]
    refine ⟨Nat.mul_mod_right _ _, ?_⟩
    rw [Nat.mul_div_cancel_left _ hu]
    exact Nat.mod_eq_zero_of_dvd ((Nat.dvd_mod_iff hnm).mpr ⟨k, rfl⟩)
  · rintro ⟨ha, hb⟩
    obtain ⟨q, rfl⟩ := Nat.dvd_of_mod_eq_zero ha
    rw [Nat.mul_div_cancel_left _ hu] at hb
    exact Nat.mul_dvd_mul_left _ ((Nat.dvd_mod_iff hnm).mp (Nat.dvd_of_mod_eq_zero hb))

theorem config_lt_minute (i : Nat) (b : Bool) (h : i < 60000000) :
    ∃ j, cronConfig i b = ⟨.every (i / 1000000), .star, .star, j⟩ := by
  have hc : ((i : Int) < usPerMin) := by simp only [usPerMin]; omega
  have hs : tdSeconds (i : Int) = i / 1000000 := by simp only [tdSeconds, usPerDay, usPerSec]; omega
  simp only [cronConfig, hc, if_true, hs]
  exact ⟨_, rfl⟩

theorem config_lt_hour (i : Nat) (b : Bool) (h0 : 60000000 ≤ i) (h : i < 3600000000) :
    ∃ j, cronConfig i b = ⟨.lit 0, .every (i / 60000000), .star, j⟩ := by
  have hc : ¬ ((i : Int) < usPerMin) := by simp only [usPerMin]; omega
  have hc' : ((i : Int) < usPerHour) := by simp only [usPerHour]; omega
  have hs : (Int.tdiv (i : Int) usPerMin).toNat = i / 60000000 := by
    simp only [usPerMin]
    rw [Int.tdiv_eq_ediv_of_nonneg (by omega)]; omega
  simp only [cronConfig, hc, hc', if_true, if_false, hs]
  exact ⟨_, rfl⟩

theorem config_lt_day (i : Nat) (b : Bool) (h0 : 3600000000 ≤ i) (h : i < 86400000000) :
    ∃ j, cronConfig i b = ⟨.lit 0, .lit 0, .every (i / 3600000000), j⟩ := by
  have hc : ¬ ((i : Int) < usPerMin) := by simp only [usPerMin]; omega
  have hc' : ¬ ((i : Int) < usPerHour) := by simp only [usPerHour]; omega
  have hc'' : ((i : Int) < usPerDay) := by simp only [usPerDay]; omega
  have hs : (Int.tdiv (i : Int) usPerHour).toNat = i / 3600000000 := by
    simp only [usPerHour]
    rw [Int.tdiv_eq_ediv_of_nonneg (by omega)]; omega
  simp only [cronConfig, hc, hc', hc'', if_true, if_false, hs]
  exact ⟨_, rfl⟩

theorem config_ge_day (i : Nat) (b : Bool) (h : 86400000000 ≤ i) :
    ∃ j, cronConfig i b = ⟨.lit 0, .lit 0, .lit 0, j⟩ := by
  have hc : ¬ ((i : Int) < usPerMin) := by simp only [usPerMin]; omega
  have hc' : ¬ ((i : Int) < usPerHour) := by simp only [usPerHour]; omega
  have hc'' : ¬ ((i : Int) < usPerDay) := by simp only [usPerDay]; omega
  simp only [cronConfig, hc, hc', hc'', if_false]
  exact ⟨_, rfl⟩

/-- When the schedule fires, per class of intervals. -/
theorem fires_lt_minute (n : Nat) (t : Nat) (j : Option Int) :
    cronFires ⟨.every n, .star, .star, j⟩ t = true ↔ t % 1000000 = 0 ∧ t / 1000000 % 60 % n = 0 := by
  simp [cronFires, CronField.accepts]

theorem fires_lt_hour (n : Nat) (t : Nat) (j : Option Int) :
    cronFires ⟨.lit 0, .every n, .star, j⟩ t = true ↔ t % 60000000 = 0 ∧ t / 60000000 % 60 % n = 0 := by
  simp only [cronFires, CronField.accepts, Bool.and_true, Bool.and_eq_true, beq_iff_eq]
  have e : t / 1000000 / 60 = t / 60000000 := by rw [Nat.div_div_eq_div_mul]
  rw [e]
  constructor
  · rintro ⟨⟨h1, h2⟩, h3⟩; exact ⟨by omega, h3⟩
  · rintro ⟨h1, h3⟩; exact ⟨⟨by omega, by omega⟩, h3⟩

theorem fires_lt_day (n : Nat) (t : Nat) (j : Option Int) :
    cronFires ⟨.lit 0, .lit 0, .every n, j⟩ t = true ↔ t % 3600000000 = 0 ∧ t / 3600000000 % 24 % n = 0 := by
  simp only [cronFires, CronField.accepts, Bool.and_eq_true, beq_iff_eq]
  have e : t / 1000000 / 3600 = t / 3600000000 := by rw [Nat.div_div_eq_div_mul]
  rw [e]
  constructor
  · rintro ⟨⟨⟨h1, h2⟩, h4⟩, h3⟩; exact ⟨by omega, h3⟩
  · rintro ⟨h1, h3⟩; exact ⟨⟨⟨by omega, by omega⟩, by omega⟩, h3⟩

theorem fires_ge_day (t : Nat) (j : Option Int) :
    cronFires ⟨.lit 0, .lit 0, .lit 0, j⟩ t = true ↔ 86400000000 ∣ t := by
  simp only [cronFires, CronField.accepts, Bool.and_eq_true, beq_iff_eq]
  omega

theorem fires_even (i : Nat) (b : Bool) (h : EvenInterval i) (t : Nat) : cronFires (cronConfig i b) t = true ↔ i ∣ t := by
  rcases h with ⟨h0, h1, ⟨n, rfl⟩, ⟨m, h3⟩⟩ | ⟨h0, h1, ⟨n, rfl⟩, ⟨m, h3⟩⟩ | ⟨h0, h1, ⟨n, rfl⟩, ⟨m, h3⟩⟩
  · obtain ⟨j, hj⟩ := config_lt_minute _ b h1
    rw [hj, fires_lt_minute, Nat.mul_div_cancel_left _ (by decide),
      dvd_unit 1000000 n 60 t (by decide) ⟨m, by rw [Nat.mul_assoc] at h3; omega⟩]
  · obtain ⟨j, hj⟩ := config_lt_hour _ b h0 h1
    rw [hj, fires_lt_hour, Nat.mul_div_cancel_left _ (by decide),
      dvd_unit 60000000 n 60 t (by decide) ⟨m, by rw [Nat.mul_assoc] at h3; omega⟩]
  · by_cases h24 : 3600000000 * n = 86400000000
    · obtain ⟨j, hj⟩ := config_ge_day _ b (Nat.le_of_eq h24.symm)
      rw [hj, fires_ge_day, h24]
    · obtain ⟨j, hj⟩ := config_lt_day _ b h0 (by omega)
      rw [hj, fires_lt_day, Nat.mul_div_cancel_left _ (by decide),
        dvd_unit 3600000000 n 24 t (by decide) ⟨m, by rw [Nat.mul_assoc] at h3; omega⟩]

theorem periodic_of_dvd (f : Nat → Bool) (i : Nat) (h : ∀ t, f t = true ↔ i ∣ t) : Periodic f i := by
  refine ⟨⟨0, (h 0).mpr (Nat.dvd_zero i)⟩, fun t ht => ?_⟩
  have hd := (h t).mp ht
  refine ⟨(h _).mpr (Nat.dvd_add hd (Nat.dvd_refl i)), fun s h1 h2 => ?_⟩
  cases hs : f s with
  | false => rfl
  | true =>
    have hs' := (h s).mp hs
    have : i ∣ s - t := Nat.dvd_sub hs' hd
    have := Nat.le_of_dvd (by omega) this
    omega

/-- A periodic schedule that fires at 0 and at `u` has an interval that divides `u`. -/
theorem dvd_of_periodic (f : Nat → Bool) (i u : Nat) (hi : 0 < i) (h : Periodic f i) (h0 : f 0 = true) (hu : f u = true) : i ∣ u := by
  have hk : ∀ k, f (i * k) = true := by
    intro k
    induction k with
    | zero => simpa using h0
    | succ k ih => rw [Nat.mul_succ]; exact (h.2 _ ih).1
  have hq := hk (u / i)
  by_cases hr : u % i = 0
  · exact Nat.dvd_of_mod_eq_zero hr
  · have e := Nat.div_add_mod u i
    have hlt := Nat.mod_lt u hi
    have := (h.2 _ hq).2 u (by omega) (by omega)
    rw [hu] at this; cases this

theorem even_of_periodic (i : Nat) (b : Bool) (hi : 0 < i) (h : Periodic (cronFires (cronConfig i b)) i) : EvenInterval i := by
  by_cases h1 : i < 60000000
  · obtain ⟨j, hj⟩ := config_lt_minute i b h1
    rw [hj] at h
    have h0 : cronFires ⟨.every (i / 1000000), .star, .star, j⟩ 0 = true := by simp [cronFires, CronField.accepts]
    have hi' := (h.2 0 h0).1
    have hd := dvd_of_periodic _ i 60000000 hi h h0 (by simp [cronFires, CronField.accepts])
    simp only [Nat.zero_add, fires_lt_minute] at hi'
    exact .inl ⟨hi, h1, Nat.dvd_of_mod_eq_zero hi'.1, hd⟩
  · by_cases h2 : i < 3600000000
    · obtain ⟨j, hj⟩ := config_lt_hour i b (by omega) h2
      rw [hj] at h
      have h0 : cronFires ⟨.lit 0, .every (i / 60000000), .star, j⟩ 0 = true := by simp [cronFires, CronField.accepts]
      have hi' := (h.2 0 h0).1
      have hd := dvd_of_periodic _ i 3600000000 hi h h0 (by simp [cronFires, CronField.accepts])
      simp only [Nat.zero_add, fires_lt_hour] at hi'
      exact .inr (.inl ⟨by omega, h2, Nat.dvd_of_mod_eq_zero hi'.1, hd⟩)
    · by_cases h3 : i < 86400000000
      · obtain ⟨j, hj⟩ := config_lt_day i b (by omega) h3
        rw [hj] at h
        have h0 : cronFires ⟨.lit 0, .lit 0, .every (i / 3600000000), j⟩ 0 = true := by simp [cronFires, CronField.accepts]
        have hi' := (h.2 0 h0).1
        have hd := dvd_of_periodic _ i 86400000000 hi h h0 (by simp [cronFires, CronField.accepts])
        simp only [Nat.zero_add, fires_lt_day] at hi'
        exact .inr (.inr ⟨by omega, by omega, Nat.dvd_of_mod_eq_zero hi'.1, hd⟩)
      · obtain ⟨j, hj⟩ := config_ge_day i b (by omega)
        rw [hj] at h
        have h0 : cronFires ⟨.lit 0, .lit 0, .lit 0, j⟩ 0 = true := by simp [cronFires, CronField.accepts]
        have hd := dvd_of_periodic _ i 86400000000 hi h h0 (by simp [cronFires, CronField.accepts])
        have hle := Nat.le_of_dvd (by decide) hd
        exact .inr (.inr ⟨by omega, hle, by omega, hd⟩)

end Openleadr
