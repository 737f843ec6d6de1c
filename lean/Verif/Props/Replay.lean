import Verif.Model.Replay
import Verif.Props.Timestamps
/-!
C36 A signed message is accepted at most once.
C37 Fresh messages are accepted and the nonce memory stays bounded by the window.
-/
namespace Openleadr

/-! ### helpers -/

/-- The pair that identifies a message: instant and nonce. -/
def Stamp.pair (m : Stamp) : Option (DateTime × String) :=
  match m.timestamp, m.nonce with
  | some t, some n =>
    match parseDatetime t with
    | .ok (.dt d) => some (d, n)
    | _ => none
  | _, _ => none

/-- The clock does not go back. -/
def Forward (s : Surroundings) : Prop := ∀ i j, i ≤ j → s.clock i ≤ s.clock j

/-- The iteration over the set goes over its elements. -/
def Iterates (s : Surroundings) : Prop := ∀ l, (s.order l).Perm l

theorem evict_sublist (clock : Nat → Int) (i : Nat) (l : NonceCache) : (evict clock i l).Sublist l := by
  induction l generalizing i with
  | nil => exact List.Sublist.refl _
  | cons x l ih =>
    simp only [evict]
    split
    · exact (ih _).cons _
    · exact (ih _).cons_cons _

theorem evict_mem (clock : Nat → Int) (i : Nat) (l : NonceCache) (x : DateTime × String) (hx : x ∈ l) :
    x ∈ evict clock i l ∨ ∃ j, j < l.length ∧ x.1.micros < clock (i + j) - maxAge := by
  induction l generalizing i with
  | nil => simp at hx
  | cons y l ih =>
    simp only [evict]
    rcases List.mem_cons.mp hx with rfl | hx
    · split
      · rename_i h; exact .inr ⟨0, by simp, by simpa using h⟩
      · exact .inl (by simp)
    · rcases ih (i + 1) hx with h | ⟨j, hj, h⟩
      · left; split <;> simp [h]
      · exact .inr ⟨j + 1, by simp; omega, by rw [show i + (j + 1) = i + 1 + j by omega]; exact h⟩

theorem evict_young (clock : Nat → Int) (hmono : ∀ i j, i ≤ j → clock i ≤ clock j) (i : Nat) (l : NonceCache) (x : DateTime × String)
    (hx : x ∈ evict clock i l) : clock i - maxAge ≤ x.1.micros := by
  induction l generalizing i with
  | nil => simp [evict] at hx
  | cons y l ih =>
    simp only [evict] at hx
    have hm := hmono i (i + 1) (by omega)
    split at hx
    · have := ih (i + 1) hx; omega
    · rcases List.mem_cons.mp hx with rfl | hx
      · omega
      · have := ih (i + 1) hx; omega

/-- An accepted check: the pair was not in the cache, was young enough, and the cache was updated. -/
theorem verifyReplay_ok (s : Surroundings) (i : Nat) (cache : NonceCache) (m : Stamp) (h : (verifyReplay s i cache m).2 = .ok ()) :
    ∃ x, m.pair = some x ∧ x ∉ cache ∧ s.clock i - maxAge ≤ x.1.micros ∧ (verifyReplay s i cache m).1 = updateNonceCache s (i + 1) cache x := by
  unfold verifyReplay at h ⊢
  unfold Stamp.pair
  cases ht : m.timestamp with
  | none => simp [ht] at h
  | some t =>
    simp only [ht] at h ⊢
    cases hp : parseDatetime t with
    | error e => simp [hp] at h
    | ok r =>
      simp only [hp] at h ⊢
      cases hn : m.nonce with
      | none => simp [hn] at h
      | some n =>
        simp only [hn] at h ⊢
        cases r with
        | unchanged u => simp at h
        | dt d =>
          simp only at h ⊢
          by_cases h1 : d.micros < s.clock i - maxAge
          · simp [h1] at h
          · by_cases h2 : (d, n) ∈ cache
            · simp [h1, h2] at h
            · refine ⟨(d, n), by rw [hp], h2, by simp only; omega, by simp [h1, h2]⟩

/-- A refused check leaves the cache as it is. -/
theorem verifyReplay_error (s : Surroundings) (i : Nat) (cache : NonceCache) (m : Stamp) (e : Err)
    (h : (verifyReplay s i cache m).2 = .error e) : (verifyReplay s i cache m).1 = cache := by
  unfold verifyReplay at h ⊢
  split
  · rfl
  · split
    · rfl
    · split
      · rfl
      · split
        · rfl
        · split
          · rfl
          · split
            · rfl
            · rename_i h1 h2 h3 h4 h5 h6 h7
              simp_all

theorem evict_length (clock : Nat → Int) (i : Nat) (l : NonceCache) : (evict clock i l).length ≤ l.length :=
  (evict_sublist clock i l).length_le

/-- A pair is spent from reading `i` on: it is remembered, or too old. -/
def Spent (s : Surroundings) (i : Nat) (cache : NonceCache) (x : DateTime × String) : Prop :=
  x ∈ cache ∨ x.1.micros < s.clock i - maxAge

theorem spent_step (s : Surroundings) (hf : Forward s) (ho : Iterates s) (i : Nat) (cache : NonceCache) (m : Stamp) (x : DateTime × String)
    (h : Spent s i cache x ∨ ((verifyReplay s i cache m).2 = .ok () ∧ m.pair = some x)) :
    Spent s (i + readings cache) (verifyReplay s i cache m).1 x := by
  have hold : x.1.micros < s.clock i - maxAge → Spent s (i + readings cache) (verifyReplay s i cache m).1 x := by
    intro h
    have := hf i (i + readings cache) (by simp [readings])
    exact .inr (by omega)
  cases hr : (verifyReplay s i cache m).2 with
  | error e =>
    rw [hr] at h
    rcases h with (h | h) | ⟨h, _⟩
    · rw [verifyReplay_error s i cache m e hr]; exact .inl h
    · exact hold h
    · cases h
  | ok u =>
    obtain ⟨y, hy, hn, hage, hc⟩ := verifyReplay_ok s i cache m hr
    have hin : x ∈ cache ++ [y] → Spent s (i + readings cache) (verifyReplay s i cache m).1 x := by
      intro hx
      rw [hc, updateNonceCache, if_neg hn]
      have hperm := ho (cache ++ [y])
      rcases evict_mem s.clock (i + 1) _ x (hperm.mem_iff.mpr hx) with h | ⟨j, hj, h⟩
      · exact .inl h
      · refine .inr ?_
        rw [hperm.length_eq] at hj
        simp only [List.length_append, List.length_singleton] at hj
        have := hf (i + 1 + j) (i + readings cache) (by simp only [readings]; omega)
        omega
    rcases h with (h | h) | ⟨_, h⟩
    · exact hin (by simp [h])
    · exact hold h
    · rw [hy] at h
      exact hin (by simp [Option.some.inj h])

theorem spent_refused (s : Surroundings) (i : Nat) (cache : NonceCache) (m : Stamp) (x : DateTime × String)
    (h : Spent s i cache x) (hp : m.pair = some x) : (verifyReplay s i cache m).2 ≠ .ok () := by
  intro hok
  obtain ⟨y, hy, hn, hage, _⟩ := verifyReplay_ok s i cache m hok
  rw [hp] at hy
  obtain rfl := Option.some.inj hy
  rcases h with h | h
  · exact hn h
  · omega

theorem runChecks_spent (s : Surroundings) (hf : Forward s) (ho : Iterates s) (ms : List Stamp) (i : Nat) (cache : NonceCache)
    (x : DateTime × String) (h : Spent s i cache x) (k : Nat) (m : Stamp) (hk : ms[k]? = some m) (hp : m.pair = some x) :
    (runChecks s i cache ms).2[k]? = some false := by
  induction ms generalizing i cache k with
  | nil => simp at hk
  | cons m0 ms ih =>
    simp only [runChecks]
    cases k with
    | zero =>
      simp only [List.getElem?_cons_zero, Option.some.injEq] at hk ⊢
      subst hk
      have := spent_refused s i cache m0 x h hp
      cases hr : (verifyReplay s i cache m0).2 with
      | error e => rfl
      | ok u => exact absurd hr this
    | succ k =>
      simp only [List.getElem?_cons_succ] at hk ⊢
      exact ih _ _ (spent_step s hf ho i cache m0 x (.inl h)) k hk

/-- **C36**: with a clock that does not go back, of two messages with the same timestamp and nonce at most one is accepted, in every
    sequence of messages and from every state of the memory. -/
theorem c36_accepted_once (s : Surroundings) (hf : Forward s) (ho : Iterates s) (ms : List Stamp) (i : Nat) (cache : NonceCache)
    (k l : Nat) (hkl : k < l) (a b : Stamp) (ha : ms[k]? = some a) (hb : ms[l]? = some b) (x : DateTime × String)
    (hax : a.pair = some x) (hbx : b.pair = some x) :
    ¬ ((runChecks s i cache ms).2[k]? = some true ∧ (runChecks s i cache ms).2[l]? = some true) := by
  rintro ⟨h1, h2⟩
  induction ms generalizing i cache k l with
  | nil => simp at ha
  | cons m0 ms ih =>
    obtain ⟨l, rfl⟩ : ∃ l', l = l' + 1 := ⟨l - 1, by omega⟩
    simp only [runChecks, List.getElem?_cons_succ] at h2 hb
    cases k with
    | zero =>
      simp only [List.getElem?_cons_zero, Option.some.injEq] at ha h1
      subst ha
      simp only [runChecks, List.getElem?_cons_zero, Option.some.injEq] at h1
      have hok : (verifyReplay s i cache m0).2 = .ok () := by
        cases hr : (verifyReplay s i cache m0).2 with
        | error e => rw [hr] at h1; cases h1
        | ok u => rfl
      have := runChecks_spent s hf ho ms _ _ x (spent_step s hf ho i cache m0 x (.inr ⟨hok, hax⟩)) l b hb hbx
      rw [this] at h2; cases h2
    | succ k =>
      simp only [runChecks, List.getElem?_cons_succ] at ha h1
      exact ih _ _ k l (by omega) ha hb h1 h2

/-- **C36**: an accepted message is not older than five seconds at the time of its check, and it has a well-formed timestamp and a nonce. -/
theorem c36_not_too_old (s : Surroundings) (i : Nat) (cache : NonceCache) (m : Stamp) (h : (verifyReplay s i cache m).2 = .ok ()) :
    ∃ text nonce t, m.timestamp = some text ∧ m.nonce = some nonce ∧ parseDatetime text = .ok (.dt t) ∧
      s.clock i - t.micros ≤ 5 * 1000000 := by
  obtain ⟨x, hp, _, hage, _⟩ := verifyReplay_ok s i cache m h
  unfold Stamp.pair at hp
  split at hp
  · rename_i t n ht hn
    split at hp
    · rename_i d hd
      cases hp
      exact ⟨t, n, d, ht, hn, hd, by simp only [maxAge] at hage ⊢; omega⟩
    · cases hp
  · cases hp

/-- The assumption about the clock is needed: when it goes back by more than five seconds, a message can be accepted again after its pair
    was evicted. -/
theorem c36_clock_back :
    let t : DateTime := ⟨2024, 1, 1, 0, 0, 0, 0⟩
    let s : Surroundings := ⟨fun i => if i = 0 then t.micros else if i ≤ 3 then t.micros + 5000001 else t.micros, id⟩
    (runChecks s 0 [] [createReplay t "n", createReplay t "n", createReplay t "n"]).2 = [true, false, true] := by
  decide +kernel

/-- **C37**: a message whose pair is not remembered and whose timestamp is not older than five seconds is accepted. -/
theorem c37_fresh_accepted (s : Surroundings) (i : Nat) (cache : NonceCache) (m : Stamp) (text : Text) (nonce : String) (t : DateTime)
    (ht : m.timestamp = some text) (hn : m.nonce = some nonce) (hp : parseDatetime text = .ok (.dt t)) (hnew : (t, nonce) ∉ cache)
    (hage : s.clock i - t.micros ≤ 5 * 1000000) : (verifyReplay s i cache m).2 = .ok () := by
  have h1 : ¬ t.micros < s.clock i - maxAge := by simp only [maxAge]; omega
  simp [verifyReplay, ht, hp, hn, h1, hnew]

/-- Only pairs of accepted messages are remembered, each once. -/
theorem c37_memory_of_accepted (s : Surroundings) (ho : Iterates s) (ms : List Stamp) (i : Nat) (cache : NonceCache) (x : DateTime × String)
    (hx : x ∈ (runChecks s i cache ms).1) :
    x ∈ cache ∨ ∃ k : Nat, ∃ m : Stamp, ms[k]? = some m ∧ m.pair = some x ∧ (runChecks s i cache ms).2[k]? = some true := by
  induction ms generalizing i cache with
  | nil => exact .inl hx
  | cons m ms ih =>
    simp only [runChecks] at hx ⊢
    rcases ih _ _ hx with h | ⟨k, m', h1, h2, h3⟩
    · cases hr : (verifyReplay s i cache m).2 with
      | error e => rw [verifyReplay_error s i cache m e hr] at h; exact .inl h
      | ok u =>
        obtain ⟨y, hy, hn, _, hc⟩ := verifyReplay_ok s i cache m hr
        rw [hc, updateNonceCache, if_neg hn] at h
        have := (ho _).mem_iff.mp ((evict_sublist _ _ _).subset h)
        simp only [List.mem_append, List.mem_singleton] at this
        rcases this with h | rfl
        · exact .inl h
        · exact .inr ⟨0, m, rfl, hy, rfl⟩
    · exact .inr ⟨k + 1, m', h1, h2, h3⟩

/-- **C37**: a message stamped by the library itself (openleadr/messaging.py:175-187) and checked at most five seconds later is accepted,
    unless the same pair was accepted before: after any sequence of checks that did not contain the pair. -/
theorem c37_own_message_accepted (s : Surroundings) (ho : Iterates s) (ms : List Stamp) (i j : Nat) (t : DateTime) (nonce : String)
    (hy : 1000 ≤ t.year)
    (hv : Spec.validDateTime t.year t.month t.day t.hour t.minute t.second t.micro) (hnew : ∀ m ∈ ms, m.pair ≠ some (t, nonce)) (hage : s.clock j - t.micros ≤ 5 * 1000000) :
    (verifyReplay s j (runChecks s i [] ms).1 (createReplay t nonce)).2 = .ok () := by
  refine c37_fresh_accepted s j _ _ _ nonce t rfl rfl (c04_timestamp_round_trip t hy hv) ?_ hage
  intro hin
  rcases c37_memory_of_accepted s ho ms i [] _ hin with h | ⟨k, m, hk, hp, _⟩
  · simp at h
  · exact hnew m (List.mem_of_getElem? hk) hp

/-- **C37** (partial: what is missing are refused checks, which do not clean up, see below): after an accepted check every remembered pair
    is at most five seconds older than the check. -/
theorem c37_memory_window_partial (s : Surroundings) (hf : Forward s) (i : Nat) (cache : NonceCache) (m : Stamp)
    (h : (verifyReplay s i cache m).2 = .ok ()) (x : DateTime × String) (hx : x ∈ (verifyReplay s i cache m).1) :
    s.clock i - x.1.micros ≤ 5 * 1000000 := by
  obtain ⟨y, _, hn, _, hc⟩ := verifyReplay_ok s i cache m h
  rw [hc, updateNonceCache] at hx
  have h1 := evict_young s.clock hf (i + 1) _ x hx
  have h2 := hf i (i + 1) (by omega)
  simp only [maxAge] at h1
  omega

/-- The memory never holds a pair twice. -/
theorem c37_no_repetition (s : Surroundings) (ho : Iterates s) (i : Nat) (cache : NonceCache) (m : Stamp) (h : cache.Nodup) :
    (verifyReplay s i cache m).1.Nodup := by
  cases hr : (verifyReplay s i cache m).2 with
  | error e => rw [verifyReplay_error s i cache m e hr]; exact h
  | ok u =>
    obtain ⟨y, _, hn, _, hc⟩ := verifyReplay_ok s i cache m hr
    rw [hc, updateNonceCache, if_neg hn]
    refine (evict_sublist _ _ _).nodup ((ho _).nodup_iff.mpr ?_)
    rw [List.nodup_append]
    exact ⟨h, by simp, by intro a ha b hb; rw [List.mem_singleton] at hb; rintro rfl; exact hn (hb ▸ ha)⟩

/-- **C37, refuted** for refused checks: the memory is not cleaned, so an hour after the last accepted message it still holds its pair. -/
theorem c37_refused_check_violated :
    let t : DateTime := ⟨2024, 1, 1, 0, 0, 0, 0⟩
    let s : Surroundings := ⟨fun i => if i ≤ 1 then t.micros else t.micros + 3600000000, id⟩
    Forward s ∧ Iterates s ∧ runChecks s 0 [] [createReplay t "n", createReplay t "m"] = ([(t, "n")], [true, false]) := by
  intro t s
  refine ⟨?_, fun l => List.Perm.refl _, by decide +kernel⟩
  intro i j hij
  simp only [s]
  split <;> split <;> omega

/-- non-vacuity: three messages, one of them sent twice, one of them too old. -/
example :
    let t : DateTime := ⟨2024, 2, 29, 23, 59, 59, 999999⟩
    let u : DateTime := ⟨2024, 3, 1, 0, 0, 4, 0⟩
    let s : Surroundings := ⟨fun i => u.micros + i, List.reverse⟩
    (runChecks s 0 [] [createReplay t "n", createReplay u "n", createReplay t "n", ⟨none, some "n"⟩, createReplay u "m"]).2 =
      [true, true, false, false, true] := by decide +kernel

end Openleadr
