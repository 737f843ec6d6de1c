import Verif.Lemmas.Cron
/-!
C14 Polling schedules fire with the requested period. C15 Schedule jitter stays in its documented limits.
-/
namespace Openleadr
open Spec

/-- **C14** (partial: the intervals that divide the minute, the hour or the day evenly): the schedule is valid, fires with exactly that
    interval, forever. The full claim quantifies over every interval; `c14_periodic_iff_even` shows that exactly these intervals work. -/
theorem c14_schedule_period_partial (interval : Nat) (jitter : Bool) (h : EvenInterval interval) :
    (cronConfig interval jitter).valid = true ∧ Periodic (cronFires (cronConfig interval jitter)) interval := by
  refine ⟨?_, periodic_of_dvd _ _ (fires_even interval jitter h)⟩
  rcases h with ⟨h0, h1, h2, h3⟩ | ⟨h0, h1, h2, h3⟩ | ⟨h0, h1, h2, h3⟩
  · obtain ⟨j, hj⟩ := config_lt_minute _ jitter h1
    rw [hj]
    have : interval / 1000000 ≠ 0 := by have := Nat.le_of_dvd h0 h2; omega
    obtain ⟨n, hn⟩ : ∃ n, interval / 1000000 = n + 1 := ⟨interval / 1000000 - 1, by omega⟩
    simp [CronConfig.valid, CronField.valid, hn]
  · obtain ⟨j, hj⟩ := config_lt_hour _ jitter h0 h1
    rw [hj]
    obtain ⟨n, hn⟩ : ∃ n, interval / 60000000 = n + 1 := ⟨interval / 60000000 - 1, by omega⟩
    simp [CronConfig.valid, CronField.valid, hn]
  · by_cases h24 : interval = 86400000000
    · obtain ⟨j, hj⟩ := config_ge_day _ jitter (Nat.le_of_eq h24.symm)
      rw [hj]; simp [CronConfig.valid, CronField.valid]
    · obtain ⟨j, hj⟩ := config_lt_day _ jitter h0 (by omega)
      rw [hj]
      obtain ⟨n, hn⟩ : ∃ n, interval / 3600000000 = n + 1 := ⟨interval / 3600000000 - 1, by omega⟩
      simp [CronConfig.valid, CronField.valid, hn]

/-- **C14**: exactly the evenly dividing intervals give a periodic schedule, over all positive intervals. -/
theorem c14_periodic_iff_even (interval : Nat) (jitter : Bool) (h : 0 < interval) :
    Periodic (cronFires (cronConfig interval jitter)) interval ↔ EvenInterval interval :=
  ⟨even_of_periodic interval jitter h, fun he => (c14_schedule_period_partial interval jitter he).2⟩

/-- non-vacuity: 10 seconds (the default polling), 15 minutes and 6 hours are among them. -/
example : EvenInterval 10000000 ∧ EvenInterval 900000000 ∧ EvenInterval 21600000000 := by
  refine ⟨.inl (by decide), .inr (.inl (by decide)), .inr (.inr (by decide))⟩

/-- **C14, refuted** for the others: a 45 second interval fires again after 15 seconds, 90 seconds after 60 seconds, and half a second
    gives a schedule that is refused. -/
theorem c14_schedule_period_violated :
    ¬ Periodic (cronFires (cronConfig 45000000 false)) 45000000 ∧
    ¬ Periodic (cronFires (cronConfig 90000000 false)) 90000000 ∧
    (cronConfig 500000 false).valid = false := by
  refine ⟨fun h => ?_, fun h => ?_, by decide⟩
  · have := (h.2 45000000 (by decide)).2 60000000 (by decide) (by decide)
    revert this; decide
  · have := (h.2 0 (by decide)).2 60000000 (by decide) (by decide)
    revert this; decide

/-- **C15**: with jitter the window is at most a tenth of the interval and at most 300 seconds (and not negative); without jitter
    there is none. The schedule itself does not depend on the jitter. -/
theorem c15_jitter_limits (interval : Int) (h : 0 ≤ interval) :
    (∃ j, (cronConfig interval true).jitter = some j ∧ 0 ≤ j ∧ 10 * (j * 1000000) ≤ interval ∧ j ≤ 300 ∧
      (j = 300 ∨ interval < 10 * ((j + 1) * 1000000))) ∧
    (cronConfig interval false).jitter = none ∧
    (∀ t, cronFires (cronConfig interval true) t = cronFires (cronConfig interval false) t) := by
  refine ⟨⟨min (Int.tdiv interval (10 * 1000000)) 300, ?_, ?_⟩, ?_, ?_⟩
  · simp only [cronConfig, if_true, Bool.false_eq_true, if_false]; split <;> (try split) <;> (try split) <;> rfl
  · rw [Int.tdiv_eq_ediv_of_nonneg h]; omega
  · simp only [cronConfig, if_true, Bool.false_eq_true, if_false]; split <;> (try split) <;> (try split) <;> rfl
  · intro t; simp only [cronConfig, if_true, Bool.false_eq_true, if_false]; split <;> (try split) <;> (try split) <;> rfl

/-- non-vacuity -/
example : (cronConfig 10000000 true).jitter = some 1 ∧ (cronConfig 86400000000 true).jitter = some 300 := by decide

end Openleadr
