import Verif.Model.Gather
/-!
C98: handlers written as coroutines, called for every data point of a report (openleadr/utils.py:770-786, report_service.py:91-124).
-/
namespace Openleadr

/-! ### Specification -/

/-- `r` is what the coroutine ends with in some run, whatever happens to the state while it waits. -/
inductive Returns : Co σ → Res Value → Prop
  | finish (f : σ → σ × Res Value) (s : σ) : Returns (.finish f) (f s).2
  | pause (f : σ → σ) (k : σ → Co σ) (s : σ) (r : Res Value) : Returns (k (f s)) r → Returns (.pause f k) r

/-- The result of a call stands for `r`: it is that value, or a coroutine that ends with `r` in every run. -/
def StandsFor : Called σ → Res Value → Prop
  | .value v, r => r = .ok v
  | .coroutine c, r => ∀ r', Returns c r' → r' = r
  | .raises e, r => r = .error e

/-- A schedule in which every task gets its turn again and again. -/
def FairFor (n : Nat) (sched : Nat → Nat) : Prop := ∀ i, i < n → ∀ t, ∃ m, t ≤ m ∧ sched m = i

/-- The first `n` turns of a schedule. -/
def firstTurns (sched : Nat → Nat) (n : Nat) : List Nat := (List.range n).map sched

/-! ### Coroutines have an end -/

theorem returns_some (c : Co σ) (s : σ) : ∃ r, Returns c r := by
  induction c generalizing s with
  | finish f => exact ⟨_, .finish f s⟩
  | pause f k ih => obtain ⟨r, hr⟩ := ih (f s) (f s); exact ⟨r, .pause f k s r hr⟩

theorem await_returns (other : Nat → σ → σ) (c : Co σ) (n : Nat) (s : σ) : Returns c (c.await other n s).2.2 := by
  induction c generalizing n s with
  | finish f => exact .finish f s
  | pause f k ih => exact .pause f k s _ (ih (f s) (n + 1) (other n (f s)))

/-! ### The invariant of `gather` -/

/-- A task belongs to a coroutine: it ends as the coroutine may. -/
def BelongsTo (t : Task σ) (c : Co σ) : Prop :=
  match t with
  | .running c' => ∀ r, Returns c' r → Returns c r
  | .ended r => Returns c r

theorem belongsTo_run (t : Task σ) (c : Co σ) (s : σ) (h : BelongsTo t c) : BelongsTo (t.run s).2 c := by
  match t with
  | .ended r => exact h
  | .running (.finish f) => exact h _ (.finish f s)
  | .running (.pause f k) => exact fun r hr => h r (.pause f k s r hr)

theorem run_error (t : Task σ) (s : σ) (e : Err) (h : (t.run s).2.error? = some e) : (t.run s).2 = .ended (.error e) := by
  match t with
  | .ended (.ok v) => simp [Task.run, Task.error?] at h
  | .ended (.error e') => simp only [Task.run, Task.error?, Option.some.injEq] at h; subst h; rfl
  | .running (.finish f) =>
    simp only [Task.run] at h ⊢
    cases hf : (f s).2 with
    | ok v => rw [hf] at h; simp [Task.error?] at h
    | error e' => rw [hf] at h; simp only [Task.error?, Option.some.injEq] at h; subst h; rfl
  | .running (.pause f k) => simp [Task.run, Task.error?] at h

/-- What holds all the time. -/
structure GatherInv (cs : List (Co σ)) (g : Gathering σ) : Prop where
  length : g.tasks.length = cs.length
  belongs : ∀ (i : Nat) t c, g.tasks[i]? = some t → cs[i]? = some c → BelongsTo t c
  failed : ∀ e, g.failed = some e → ∃ i : Nat, g.tasks[i]? = some (.ended (.error e))
  fine : g.failed = none → ∀ t, t ∈ g.tasks → t.error? = none

theorem gatherInv_start (cs : List (Co σ)) (s : σ) : GatherInv cs (gatherStart cs s) := by
  refine ⟨by simp [gatherStart], ?_, by simp [gatherStart], ?_⟩
  · intro i t c ht hc
    simp only [gatherStart, List.getElem?_map, hc, Option.map_some, Option.some.injEq] at ht
    subst ht
    exact fun r hr => hr
  · intro _ t ht
    simp only [gatherStart, List.mem_map] at ht
    obtain ⟨c, _, rfl⟩ := ht
    rfl

theorem gatherInv_turn (cs : List (Co σ)) (g : Gathering σ) (i : Nat) (h : GatherInv cs g) : GatherInv cs (g.turn i) := by
  unfold Gathering.turn
  cases hi : g.tasks[i]? with
  | none => exact h
  | some t =>
    have hlt : i < g.tasks.length := (List.getElem?_eq_some_iff.mp hi).1
    refine ⟨by simpa using h.length, ?_, ?_, ?_⟩
    · intro j t' c ht' hc
      by_cases hj : i = j
      · subst hj
        simp only [List.getElem?_set_self hlt, Option.some.injEq] at ht'
        subst ht'
        exact belongsTo_run t c g.state (h.belongs i t c hi hc)
      · simp only [List.getElem?_set_ne hj] at ht'
        exact h.belongs j t' c ht' hc
    · intro e he
      simp only at he
      cases hg : g.failed with
      | some e' =>
        rw [hg] at he
        simp only [Option.some.injEq] at he
        subst he
        obtain ⟨j, hj⟩ := h.failed e' hg
        by_cases hji : i = j
        · subst hji
          rw [hi] at hj
          simp only [Option.some.injEq] at hj
          subst hj
          exact ⟨i, by simp [List.getElem?_set_self hlt, Task.run]⟩
        · exact ⟨j, by simp only [List.getElem?_set_ne hji]; exact hj⟩
      | none =>
        rw [hg] at he
        exact ⟨i, by simp only [List.getElem?_set_self hlt]; rw [run_error t g.state e he]⟩
    · intro hf t' ht'
      simp only at hf
      cases hg : g.failed with
      | some e' => rw [hg] at hf; simp at hf
      | none =>
        rw [hg] at hf
        rcases List.mem_or_eq_of_mem_set ht' with hm | rfl
        · exact h.fine hg t' hm
        · exact hf

theorem gatherInv_turns (cs : List (Co σ)) (is : List Nat) (g : Gathering σ) (h : GatherInv cs g) : GatherInv cs (g.turns is) := by
  induction is generalizing g with
  | nil => exact h
  | cons i is ih => exact ih _ (gatherInv_turn cs g i h)

theorem mapM_values (ts : List (Task σ)) (vs : List Value) (h : ts.mapM Task.value? = some vs) : ts = vs.map (fun v => .ended (.ok v)) := by
  induction ts generalizing vs with
  | nil => simp at h; subst h; rfl
  | cons t ts ih =>
    simp only [List.mapM_cons, Option.bind_eq_bind, Option.pure_def] at h
    cases ht : t.value? with
    | none => rw [ht] at h; simp at h
    | some v =>
      rw [ht] at h
      cases hts : ts.mapM Task.value? with
      | none => rw [hts] at h; simp at h
      | some vs' =>
        rw [hts] at h
        simp only [Option.bind_some, Option.some.injEq] at h
        subst h
        rw [ih vs' hts]
        match t with
        | .running _ => simp [Task.value?] at ht
        | .ended (.error _) => simp [Task.value?] at ht
        | .ended (.ok w) => simp only [Task.value?, Option.some.injEq] at ht; subst ht; rfl

/-- **C98.** Whatever order the event loop runs the coroutines in: when `gather` gives values, there is one for every coroutine, at its place, and
    it is one that this coroutine returned. -/
theorem c98_order (cs : List (Co σ)) (s : σ) (turns : List Nat) (vs : List Value)
    (h : ((gatherStart cs s).turns turns).outcome = some (.ok vs)) :
    vs.length = cs.length ∧ ∀ (i : Nat) c, cs[i]? = some c → ∃ v, vs[i]? = some v ∧ Returns c (.ok v) := by
  have inv := gatherInv_turns cs turns _ (gatherInv_start cs s)
  unfold Gathering.outcome at h
  cases hf : ((gatherStart cs s).turns turns).failed with
  | some e => rw [hf] at h; simp at h
  | none =>
    rw [hf] at h
    simp only [Option.map_eq_some_iff, Except.ok.injEq, exists_eq_right] at h
    have hts := mapM_values _ _ h
    have hl := inv.length
    rw [hts, List.length_map] at hl
    refine ⟨hl, fun i c hc => ?_⟩
    have hi : i < vs.length := by rw [hl]; exact (List.getElem?_eq_some_iff.mp hc).1
    refine ⟨vs[i], List.getElem?_eq_getElem hi, ?_⟩
    have ht : ((gatherStart cs s).turns turns).tasks[i]? = some (.ended (.ok vs[i])) := by
      rw [hts, List.getElem?_map, List.getElem?_eq_getElem hi]; rfl
    exact inv.belongs i _ c ht hc

/-- **C98.** An exception that `gather` hands on is one that a coroutine ended with. -/
theorem c98_error (cs : List (Co σ)) (s : σ) (turns : List Nat) (e : Err)
    (h : ((gatherStart cs s).turns turns).outcome = some (.error e)) : ∃ c, c ∈ cs ∧ Returns c (.error e) := by
  have inv := gatherInv_turns cs turns _ (gatherInv_start cs s)
  unfold Gathering.outcome at h
  cases hf : ((gatherStart cs s).turns turns).failed with
  | none => rw [hf] at h; simp [Option.map_eq_some_iff] at h
  | some e' =>
    rw [hf] at h
    simp only [Option.some.injEq, Except.error.injEq] at h
    subst h
    obtain ⟨i, hi⟩ := inv.failed e' hf
    have hlt : i < cs.length := by rw [← inv.length]; exact (List.getElem?_eq_some_iff.mp hi).1
    exact ⟨cs[i], List.getElem_mem hlt, inv.belongs i _ _ hi (List.getElem?_eq_getElem hlt)⟩

/-! ### It ends, and stays as it is -/

theorem turns_append (g : Gathering σ) (is js : List Nat) : g.turns (is ++ js) = (g.turns is).turns js := by
  induction is generalizing g with
  | nil => rfl
  | cons i is ih => exact ih _

theorem turn_length (g : Gathering σ) (i : Nat) : (g.turn i).tasks.length = g.tasks.length := by
  unfold Gathering.turn
  cases g.tasks[i]? with
  | none => rfl
  | some t => simp

theorem turns_length (g : Gathering σ) (is : List Nat) : (g.turns is).tasks.length = g.tasks.length := by
  induction is generalizing g with
  | nil => rfl
  | cons i is ih => rw [Gathering.turns, ih, turn_length]

theorem turn_other (g : Gathering σ) (i j : Nat) (h : i ≠ j) : (g.turn i).tasks[j]? = g.tasks[j]? := by
  unfold Gathering.turn
  cases g.tasks[i]? with
  | none => rfl
  | some t => simp only [List.getElem?_set_ne h]

theorem turn_ended (g : Gathering σ) (i j : Nat) (r : Res Value) (h : g.tasks[j]? = some (.ended r)) :
    (g.turn i).tasks[j]? = some (.ended r) := by
  by_cases hij : i = j
  · subst hij
    unfold Gathering.turn
    rw [h]
    simp only [List.getElem?_set_self (List.getElem?_eq_some_iff.mp h).1, Task.run]
  · rw [turn_other g i j hij, h]

theorem turns_ended (g : Gathering σ) (is : List Nat) (j : Nat) (r : Res Value) (h : g.tasks[j]? = some (.ended r)) :
    (g.turns is).tasks[j]? = some (.ended r) := by
  induction is generalizing g with
  | nil => exact h
  | cons i is ih => exact ih _ (turn_ended g i j r h)

/-- Once all tasks have ended with values, a turn changes nothing. -/
theorem turn_done (g : Gathering σ) (i : Nat) (h : ∀ t, t ∈ g.tasks → ∃ r, t = .ended r) (hf : g.failed = none → ∀ t, t ∈ g.tasks → t.error? = none) :
    g.turn i = g := by
  unfold Gathering.turn
  cases hi : g.tasks[i]? with
  | none => rfl
  | some t =>
    obtain ⟨r, rfl⟩ := h t (List.mem_of_getElem? hi)
    cases g with
    | mk state tasks failed =>
      simp only at hi
      have hs : tasks.set i (Task.ended r) = tasks := by
        apply List.ext_getElem?
        intro j
        by_cases hij : i = j
        · subst hij; rw [List.getElem?_set_self (List.getElem?_eq_some_iff.mp hi).1, hi]
        · rw [List.getElem?_set_ne hij]
      simp only [Task.run, hs, Gathering.mk.injEq, true_and]
      cases failed with
      | some e => rfl
      | none => exact hf rfl _ (List.mem_of_getElem? hi)

theorem turn_outcome (cs : List (Co σ)) (g : Gathering σ) (inv : GatherInv cs g) (i : Nat) (r : Res (List Value)) (h : g.outcome = some r) :
    (g.turn i).outcome = some r := by
  unfold Gathering.outcome at h
  cases hf : g.failed with
  | some e =>
    rw [hf] at h
    have : (g.turn i).failed = some e := by
      unfold Gathering.turn
      cases g.tasks[i]? with
      | none => exact hf
      | some t => simp only [hf]
    unfold Gathering.outcome
    rw [this]
    exact h
  | none =>
    rw [hf] at h
    simp only [Option.map_eq_some_iff] at h
    obtain ⟨vs, hvs, hr⟩ := h
    have hts := mapM_values _ _ hvs
    have hd : ∀ t, t ∈ g.tasks → ∃ r, t = .ended r := by
      intro t ht
      rw [hts, List.mem_map] at ht
      obtain ⟨v, _, rfl⟩ := ht
      exact ⟨_, rfl⟩
    rw [turn_done g i hd inv.fine]
    unfold Gathering.outcome
    rw [hf, hvs, ← hr]
    rfl

/-- **C98.** What `gather` gave does not change any more, however long the other coroutines keep running. -/
theorem c98_final (cs : List (Co σ)) (s : σ) (turns more : List Nat) (r : Res (List Value))
    (h : ((gatherStart cs s).turns turns).outcome = some r) : ((gatherStart cs s).turns (turns ++ more)).outcome = some r := by
  rw [turns_append]
  have inv := gatherInv_turns cs turns _ (gatherInv_start cs s)
  revert inv h
  generalize (gatherStart cs s).turns turns = g
  intro h inv
  induction more generalizing g with
  | nil => exact h
  | cons i more ih => exact ih _ (turn_outcome cs g inv i r h) (gatherInv_turn cs g i inv)

theorem firstTurns_succ (sched : Nat → Nat) (n : Nat) : firstTurns sched (n + 1) = firstTurns sched n ++ [sched n] := by
  simp [firstTurns, List.range_succ]

/-- A task is left alone until its next turn. -/
theorem untouched (g : Gathering σ) (sched : Nat → Nat) (i t m : Nat) (htm : t ≤ m) (h : ∀ j, t ≤ j → j < m → sched j ≠ i) :
    (g.turns (firstTurns sched m)).tasks[i]? = (g.turns (firstTurns sched t)).tasks[i]? := by
  induction m with
  | zero => have : t = 0 := by omega
            subst this; rfl
  | succ m ih =>
    by_cases hm : t = m + 1
    · subst hm; rfl
    · rw [firstTurns_succ, turns_append]
      simp only [Gathering.turns]
      rw [turn_other _ _ _ (h m (by omega) (by omega))]
      exact ih (by omega) (fun j h1 h2 => h j h1 (by omega))

/-- The first turn at or after `t`. -/
theorem next_turn (sched : Nat → Nat) (i : Nat) (n t : Nat) (hn : t ≤ n) (h : sched n = i) :
    ∃ m, t ≤ m ∧ sched m = i ∧ ∀ j, t ≤ j → j < m → sched j ≠ i := by
  induction hk : n - t generalizing t with
  | zero => exact ⟨n, hn, h, fun j h1 h2 => by omega⟩
  | succ k ih =>
    by_cases ht : sched t = i
    · exact ⟨t, Nat.le_refl t, ht, fun j h1 h2 => by omega⟩
    · obtain ⟨m, h1, h2, h3⟩ := ih (t + 1) (by omega) (by omega)
      refine ⟨m, by omega, h2, fun j hj1 hj2 => ?_⟩
      by_cases hjt : j = t
      · subst hjt; exact ht
      · exact h3 j (by omega) hj2

theorem task_ends (g : Gathering σ) (sched : Nat → Nat) (i : Nat) (hf : ∀ t, ∃ m, t ≤ m ∧ sched m = i) (c : Co σ) (t : Nat)
    (h : (g.turns (firstTurns sched t)).tasks[i]? = some (.running c)) :
    ∃ m r, (g.turns (firstTurns sched m)).tasks[i]? = some (.ended r) := by
  induction c generalizing t with
  | finish f =>
    obtain ⟨n, hn, hs⟩ := hf t
    obtain ⟨m, h1, h2, h3⟩ := next_turn sched i n t hn hs
    have hm := untouched g sched i t m h1 h3
    rw [h] at hm
    refine ⟨m + 1, (f (g.turns (firstTurns sched m)).state).2, ?_⟩
    rw [firstTurns_succ, turns_append]
    simp only [Gathering.turns, h2]
    unfold Gathering.turn
    rw [hm]
    simp only [List.getElem?_set_self (List.getElem?_eq_some_iff.mp hm).1, Task.run]
  | pause f k ih =>
    obtain ⟨n, hn, hs⟩ := hf t
    obtain ⟨m, h1, h2, h3⟩ := next_turn sched i n t hn hs
    have hm := untouched g sched i t m h1 h3
    rw [h] at hm
    apply ih (f (g.turns (firstTurns sched m)).state) (m + 1)
    rw [firstTurns_succ, turns_append]
    simp only [Gathering.turns, h2]
    unfold Gathering.turn
    rw [hm]
    simp only [List.getElem?_set_self (List.getElem?_eq_some_iff.mp hm).1, Task.run]

theorem ended_later (g : Gathering σ) (sched : Nat → Nat) (i m n : Nat) (hmn : m ≤ n) (r : Res Value)
    (h : (g.turns (firstTurns sched m)).tasks[i]? = some (.ended r)) : (g.turns (firstTurns sched n)).tasks[i]? = some (.ended r) := by
  induction n with
  | zero => have : m = 0 := by omega
            subst this; exact h
  | succ n ih =>
    by_cases hm : m = n + 1
    · subst hm; exact h
    · rw [firstTurns_succ, turns_append]
      simp only [Gathering.turns]
      exact turn_ended _ _ _ _ (ih (by omega))

/-- All tasks with a number below `k` have ended at some time. -/
theorem all_end (g : Gathering σ) (sched : Nat → Nat) (hf : FairFor g.tasks.length sched) (k : Nat) (hk : k ≤ g.tasks.length) :
    ∃ m, ∀ i, i < k → ∃ r, (g.turns (firstTurns sched m)).tasks[i]? = some (.ended r) := by
  induction k with
  | zero => exact ⟨0, fun i hi => by omega⟩
  | succ k ih =>
    obtain ⟨m, hm⟩ := ih (by omega)
    have hlt : k < (g.turns (firstTurns sched m)).tasks.length := by rw [turns_length]; omega
    have hone : ∃ m' r, (g.turns (firstTurns sched m')).tasks[k]? = some (.ended r) := by
      cases ht : (g.turns (firstTurns sched m)).tasks[k] with
      | ended r => exact ⟨m, r, by rw [List.getElem?_eq_getElem hlt, ht]⟩
      | running c => exact task_ends g sched k (hf k (by omega)) c m (by rw [List.getElem?_eq_getElem hlt, ht])
    obtain ⟨m', r, hr⟩ := hone
    refine ⟨max m m', fun i hi => ?_⟩
    by_cases hik : i = k
    · subst hik; exact ⟨r, ended_later g sched i m' _ (by omega) r hr⟩
    · obtain ⟨r', hr'⟩ := hm i (by omega)
      exact ⟨r', ended_later g sched i m _ (by omega) r' hr'⟩

theorem mapM_all_ended (ts : List (Task σ)) (h : ∀ t, t ∈ ts → ∃ v, t = .ended (.ok v)) : ∃ vs, ts.mapM Task.value? = some vs := by
  induction ts with
  | nil => exact ⟨[], rfl⟩
  | cons t ts ih =>
    obtain ⟨v, rfl⟩ := h t (List.mem_cons_self ..)
    obtain ⟨vs, hvs⟩ := ih (fun t ht => h t (List.mem_cons_of_mem _ ht))
    exact ⟨v :: vs, by simp [List.mapM_cons, Task.value?, hvs]⟩

/-- **C98.** If the event loop gives every coroutine its turn again and again, `gather` comes to an end. -/
theorem c98_ends (cs : List (Co σ)) (s : σ) (sched : Nat → Nat) (hf : FairFor cs.length sched) :
    ∃ n r, ((gatherStart cs s).turns (firstTurns sched n)).outcome = some r := by
  have hl : (gatherStart cs s).tasks.length = cs.length := by simp [gatherStart]
  obtain ⟨m, hm⟩ := all_end (gatherStart cs s) sched (by rw [hl]; exact hf) cs.length (by omega)
  have inv := gatherInv_turns cs (firstTurns sched m) _ (gatherInv_start cs s)
  refine ⟨m, ?_⟩
  unfold Gathering.outcome
  cases hfl : ((gatherStart cs s).turns (firstTurns sched m)).failed with
  | some e => exact ⟨_, rfl⟩
  | none =>
    have hall : ∀ t, t ∈ ((gatherStart cs s).turns (firstTurns sched m)).tasks → ∃ v, t = .ended (.ok v) := by
      intro t ht
      obtain ⟨i, hi, rfl⟩ := List.mem_iff_getElem.mp ht
      obtain ⟨r, hr⟩ := hm i (by rw [inv.length] at hi; exact hi)
      rw [List.getElem?_eq_getElem hi, Option.some.injEq] at hr
      have he := inv.fine hfl _ ht
      rw [hr] at he ⊢
      match r with
      | .ok v => exact ⟨v, rfl⟩
      | .error e => simp [Task.error?] at he
    obtain ⟨vs, hvs⟩ := mapM_all_ended _ hall
    rw [hvs]
    exact ⟨_, rfl⟩

/-! ### Plain functions, coroutines, and both -/

/-- The results one after the other, up to the first exception. -/
def inTurn : List (Res Value) → Res (List Value)
  | [] => .ok []
  | .error e :: _ => .error e
  | .ok v :: rs =>
    match inTurn rs with
    | .error e => .error e
    | .ok vs => .ok (v :: vs)

/-- Call by call, the results stand for these. -/
def AllStand : List (Called σ) → List (Res Value) → Prop
  | [], [] => True
  | r :: rs, q :: qs => StandsFor r q ∧ AllStand rs qs
  | _, _ => False

theorem awaitIfRequired_stands (other : Nat → σ → σ) (n : Nat) (r : Called σ) (s : σ) (q : Res Value) (h : StandsFor r q) :
    (awaitIfRequired other n r s).2.2 = q := by
  match r with
  | .value v => exact h.symm
  | .coroutine c => exact h _ (await_returns other c n s)
  | .raises e => exact h.symm

theorem awaitEach_stands (other : Nat → σ → σ) (rs : List (Called σ)) (qs : List (Res Value)) (n : Nat) (s : σ) (h : AllStand rs qs) :
    (awaitEach other n rs s).2 = inTurn qs := by
  induction rs generalizing qs n s with
  | nil => match qs with
    | [] => rfl
    | _ :: _ => exact h.elim
  | cons r rs ih =>
    match qs with
    | [] => exact h.elim
    | q :: qs =>
      have hq := awaitIfRequired_stands other n r s q h.1
      unfold awaitEach
      generalize awaitIfRequired other n r s = x at hq
      obtain ⟨s', n', y⟩ := x
      simp only at hq
      subst hq
      cases y with
      | error e => rfl
      | ok v =>
        simp only
        have := ih qs n' s' h.2
        unfold inTurn
        generalize awaitEach other n' rs s' = z at this
        obtain ⟨s'', w⟩ := z
        simp only at this
        rw [← this]
        cases w <;> rfl

theorem values_stand (rs : List (Called σ)) (qs : List (Res Value)) (h : AllStand rs qs) (hr : ∀ r, r ∈ rs → ∀ e, r ≠ .raises e)
    (hc : rs.any Called.isCoroutine = false) : inTurn qs = .ok (rs.filterMap Called.value?) := by
  induction rs generalizing qs with
  | nil => match qs with
    | [] => rfl
    | _ :: _ => exact h.elim
  | cons r rs ih =>
    match qs with
    | [] => exact h.elim
    | q :: qs =>
      simp only [List.any_cons, Bool.or_eq_false_iff] at hc
      have := ih qs h.2 (fun r hm => hr r (List.mem_cons_of_mem _ hm)) hc.2
      match r with
      | .value v =>
        have hq : q = .ok v := h.1
        subst hq
        simp [inTurn, this, Called.value?]
      | .coroutine c => simp [Called.isCoroutine] at hc
      | .raises e => exact absurd rfl (hr _ (List.mem_cons_self ..) e)

theorem coroutines_stand (rs : List (Called σ)) (qs : List (Res Value)) (h : AllStand rs qs) (hc : rs.all Called.isCoroutine = true) :
    (coroutinesOf rs).length = qs.length ∧ ∀ (i : Nat) c, (coroutinesOf rs)[i]? = some c → ∃ q, qs[i]? = some q ∧ ∀ r, Returns c r → r = q := by
  induction rs generalizing qs with
  | nil => match qs with
    | [] => exact ⟨rfl, fun i c hi => by simp [coroutinesOf] at hi⟩
    | _ :: _ => exact h.elim
  | cons r rs ih =>
    match qs with
    | [] => exact h.elim
    | q :: qs =>
      simp only [List.all_cons, Bool.and_eq_true] at hc
      obtain ⟨hl, hx⟩ := ih qs h.2 hc.2
      match r with
      | .value v => simp [Called.isCoroutine] at hc
      | .raises e => simp [Called.isCoroutine] at hc
      | .coroutine c =>
        refine ⟨by simp [coroutinesOf, hl], fun i c' hi => ?_⟩
        match i with
        | 0 =>
          simp only [coroutinesOf, List.getElem?_cons_zero, Option.some.injEq] at hi
          subst hi
          exact ⟨q, rfl, h.1⟩
        | i + 1 =>
          simp only [coroutinesOf, List.getElem?_cons_succ] at hi
          exact hx i c' hi

theorem inTurn_ok (qs : List (Res Value)) (vs : List Value) (hl : vs.length = qs.length) (h : ∀ (i : Nat) v, vs[i]? = some v → qs[i]? = some (.ok v)) :
    inTurn qs = .ok vs := by
  induction qs generalizing vs with
  | nil => match vs with
    | [] => rfl
    | _ :: _ => simp at hl
  | cons q qs ih =>
    match vs with
    | [] => simp at hl
    | v :: vs =>
      have h0 := h 0 v rfl
      simp only [List.getElem?_cons_zero, Option.some.injEq] at h0
      subst h0
      have := ih vs (by simpa using hl) (fun i v hi => by have := h (i + 1) v (by simpa using hi); simpa using this)
      simp [inTurn, this]

theorem inTurn_error (qs : List (Res Value)) (e : Err) (h : .error e ∈ qs) : ∃ e', inTurn qs = .error e' := by
  induction qs with
  | nil => simp at h
  | cons q qs ih =>
    cases q with
    | error e' => exact ⟨e', rfl⟩
    | ok v =>
      rcases List.mem_cons.mp h with hq | hq
      · simp at hq
      · obtain ⟨e', he⟩ := ih hq
        exact ⟨e', by simp [inTurn, he]⟩

/-- What `gather_if_required` gives, if it gives anything: the results in their order; or an exception, if there is one in them. -/
theorem gatherIfRequired_stands (other : Nat → σ → σ) (turns : List Nat) (rs : List (Called σ)) (qs : List (Res Value)) (s : σ) (h : AllStand rs qs)
    (hr : ∀ r, r ∈ rs → ∀ e, r ≠ .raises e) (x : Res (List Value)) (hx : (gatherIfRequired other turns rs s).2 = some x) :
    (∀ vs, x = .ok vs → inTurn qs = .ok vs) ∧ (∀ e, x = .error e → (.error e) ∈ qs ∨ inTurn qs = .error e) := by
  unfold gatherIfRequired at hx
  by_cases h1 : rs.any Called.isCoroutine = false
  · rw [if_pos h1] at hx
    simp only [Option.some.injEq] at hx
    subst hx
    exact ⟨fun vs hv => by rw [← hv]; exact values_stand rs qs h hr h1, fun e he => by simp at he⟩
  · rw [if_neg h1] at hx
    by_cases h2 : rs.all Called.isCoroutine = true
    · rw [if_pos h2] at hx
      simp only at hx
      obtain ⟨hl, hq⟩ := coroutines_stand rs qs h h2
      constructor
      · intro vs hv
        subst hv
        obtain ⟨hlen, hvs⟩ := c98_order _ s turns vs hx
        refine inTurn_ok qs vs (by omega) (fun i v hi => ?_)
        have hlt : i < (coroutinesOf rs).length := by rw [← hlen]; exact (List.getElem?_eq_some_iff.mp hi).1
        obtain ⟨v', hv', hret⟩ := hvs i _ (List.getElem?_eq_getElem hlt)
        obtain ⟨q, hq1, hq2⟩ := hq i _ (List.getElem?_eq_getElem hlt)
        rw [hi, Option.some.injEq] at hv'
        subst hv'
        rw [hq1, hq2 _ hret]
      · intro e he
        subst he
        obtain ⟨c, hc, hret⟩ := c98_error _ s turns e hx
        obtain ⟨i, hi⟩ := List.getElem?_of_mem hc
        obtain ⟨q, hq1, hq2⟩ := hq i c hi
        refine .inl ?_
        rw [hq2 _ hret]
        exact List.mem_of_getElem? hq1
    · rw [if_neg h2] at hx
      have hs := awaitEach_stands other rs qs 0 s h
      generalize awaitEach other 0 rs s = y at hs hx
      obtain ⟨s', y⟩ := y
      simp only [Option.some.injEq] at hx hs
      subst hx
      exact ⟨fun vs hv => by rw [← hs]; exact hv, fun e he => .inr (by rw [← hs]; exact he)⟩

theorem askPoints_cons (h0 : ReportAsk → Res Value) (ven : String) (status : Bool) (p : OfferedPoint) (ps : List OfferedPoint) :
    askPoints h0 ven status (p :: ps) =
      match askOf ven status p with
      | .error e => .error e
      | .ok a => match h0 a with
        | .error e => .error e
        | .ok v => match askPoints h0 ven status ps with
          | .error e => .error e
          | .ok vs => .ok (v :: vs) := rfl

/-- The calls stand for the answers of `h0`. If one of them, or the data for one of them, raises, the answers of `h0` raise as well. -/
theorem callPoints_stands (h : ReportAsk → σ → σ × Called σ) (h0 : ReportAsk → Res Value) (hh : ∀ a s, StandsFor (h a s).2 (h0 a)) (ven : String)
    (status : Bool) (ps : List OfferedPoint) (s : σ) :
    match (callPoints h ven status ps s).2 with
    | .ok rs => (∃ qs, AllStand rs qs ∧ askPoints h0 ven status ps = inTurn qs) ∧ (∀ r, r ∈ rs → ∀ e, r ≠ .raises e)
    | .error _ => ∃ e', askPoints h0 ven status ps = .error e' := by
  induction ps generalizing s with
  | nil => exact ⟨⟨[], trivial, rfl⟩, fun r hr => by simp at hr⟩
  | cons p ps ih =>
    rw [askPoints_cons]
    unfold callPoints
    cases ha : askOf ven status p with
    | error e => exact ⟨e, rfl⟩
    | ok a =>
      have hs := hh a s
      simp only
      generalize hcall : h a s = x at hs
      obtain ⟨s', r⟩ := x
      simp only at hs
      have hi := ih s'
      cases r with
      | raises e =>
        have hq : h0 a = .error e := hs
        exact ⟨e, by rw [hq]⟩
      | value v =>
        simp only
        have hq : h0 a = .ok v := hs
        rw [hq]
        generalize callPoints h ven status ps s' = y at hi
        obtain ⟨s'', y⟩ := y
        cases y with
        | error e => obtain ⟨e', he⟩ := hi; exact ⟨e', by rw [he]⟩
        | ok rs =>
          obtain ⟨⟨qs, h1, h2⟩, h3⟩ := hi
          refine ⟨⟨.ok v :: qs, ⟨rfl, h1⟩, by rw [h2]; rfl⟩, fun r hr => ?_⟩
          rcases List.mem_cons.mp hr with rfl | hr
          · intro e he; cases he
          · exact h3 r hr
      | coroutine c =>
        simp only
        generalize callPoints h ven status ps s' = y at hi
        obtain ⟨s'', y⟩ := y
        cases y with
        | error e =>
          obtain ⟨e', he⟩ := hi
          cases hq : h0 a with
          | error e'' => exact ⟨e'', rfl⟩
          | ok v => exact ⟨e', by rw [he]⟩
        | ok rs =>
          obtain ⟨⟨qs, h1, h2⟩, h3⟩ := hi
          refine ⟨⟨h0 a :: qs, ⟨hs, h1⟩, ?_⟩, fun r hr => ?_⟩
          · rw [h2]
            cases h0 a <;> rfl
          · rcases List.mem_cons.mp hr with rfl | hr
            · intro e he; cases he
            · exact h3 r hr

/-- **C98.** A handler may be a plain function, an `async` one, or now the one and now the other: whenever its calls stand for the answers of `h0`,
    the values that come out are the answers of `h0`, point by point, whatever the event loop does meanwhile; and if an exception comes out, the
    answers of `h0` contain one. -/
theorem c98_same (h : ReportAsk → σ → σ × Called σ) (h0 : ReportAsk → Res Value) (hh : ∀ a s, StandsFor (h a s).2 (h0 a)) (other : Nat → σ → σ)
    (turns : List Nat) (ven : String) (status : Bool) (ps : List OfferedPoint) (s : σ) (x : Res (List Value))
    (hx : (askPointsAsync h other turns ven status ps s).2 = some x) :
    (∀ vs, x = .ok vs ↔ askPoints h0 ven status ps = .ok vs) := by
  have hcall := callPoints_stands h h0 hh ven status ps s
  unfold askPointsAsync at hx
  generalize callPoints h ven status ps s = y at hcall hx
  obtain ⟨s', y⟩ := y
  cases y with
  | error e =>
    simp only [Option.some.injEq] at hx
    subst hx
    obtain ⟨e', he⟩ := hcall
    intro vs
    rw [he]
    simp
  | ok rs =>
    obtain ⟨⟨qs, h1, h2⟩, h3⟩ := hcall
    obtain ⟨hok, herr⟩ := gatherIfRequired_stands other turns rs qs s' h1 h3 x hx
    intro vs
    rw [h2]
    refine ⟨hok vs, fun hq => ?_⟩
    cases x with
    | ok vs' => have := hok vs' rfl; rw [hq] at this; simp only [Except.ok.injEq] at this; rw [this]
    | error e =>
      rcases herr e rfl with he | he
      · obtain ⟨e', he'⟩ := inTurn_error qs e he
        rw [hq] at he'; simp at he'
      · rw [hq] at he; simp at he

theorem coroutinesOf_le (rs : List (Called σ)) : (coroutinesOf rs).length ≤ rs.length := by
  induction rs with
  | nil => exact Nat.le_refl _
  | cons r rs ih => cases r <;> simp only [coroutinesOf, List.length_cons] <;> omega

theorem callPoints_length (h : ReportAsk → σ → σ × Called σ) (ven : String) (status : Bool) (ps : List OfferedPoint) (s s' : σ) (rs : List (Called σ))
    (hc : callPoints h ven status ps s = (s', .ok rs)) : rs.length = ps.length := by
  induction ps generalizing s rs with
  | nil => simp only [callPoints, Prod.mk.injEq, Except.ok.injEq] at hc; rw [← hc.2]; rfl
  | cons p ps ih =>
    unfold callPoints at hc
    cases ha : askOf ven status p with
    | error e => rw [ha] at hc; simp at hc
    | ok a =>
      rw [ha] at hc
      simp only at hc
      generalize h a s = x at hc
      obtain ⟨s1, r⟩ := x
      cases hr : callPoints h ven status ps s1 with
      | mk s2 y =>
        cases y with
        | error e => cases r <;> simp [hr] at hc
        | ok rs' =>
          cases r with
          | raises e => simp at hc
          | value v =>
            simp only [hr, Prod.mk.injEq, Except.ok.injEq] at hc
            rw [← hc.2, List.length_cons, List.length_cons, ih s1 rs' (by rw [hr, hc.1])]
          | coroutine c =>
            simp only [hr, Prod.mk.injEq, Except.ok.injEq] at hc
            rw [← hc.2, List.length_cons, List.length_cons, ih s1 rs' (by rw [hr, hc.1])]

/-- **C98.** With an event loop that gives every coroutine its turn again and again, the calls for the data points of a report come to an end. -/
theorem c98_answered (h : ReportAsk → σ → σ × Called σ) (other : Nat → σ → σ) (sched : Nat → Nat) (ven : String) (status : Bool)
    (ps : List OfferedPoint) (s : σ) (hf : FairFor ps.length sched) :
    ∃ n x, (askPointsAsync h other (firstTurns sched n) ven status ps s).2 = some x := by
  unfold askPointsAsync
  cases hc : callPoints h ven status ps s with
  | mk s' y =>
    cases y with
    | error e => exact ⟨0, _, rfl⟩
    | ok rs =>
      unfold gatherIfRequired
      by_cases h1 : rs.any Called.isCoroutine = false
      · exact ⟨0, .ok (rs.filterMap Called.value?), by simp only [if_pos h1]⟩
      · by_cases h2 : rs.all Called.isCoroutine = true
        · obtain ⟨n, r, hr⟩ := c98_ends (coroutinesOf rs) s' sched
            (fun i hi t => hf i (by have := coroutinesOf_le rs; have := callPoints_length h ven status ps s s' rs hc; omega) t)
          exact ⟨n, r, by simp only [if_neg h1, if_pos h2]; exact hr⟩
        · exact ⟨0, (awaitEach other 0 rs s').2, by simp only [if_neg h1, if_neg h2]⟩

/-- **C98.** So the requests to the VEN are made of the same choices. -/
theorem c98_choices (h : ReportAsk → σ → σ × Called σ) (h0 : ReportAsk → Res Value) (hh : ∀ a s, StandsFor (h a s).2 (h0 a)) (other : Nat → σ → σ)
    (turns : List Nat) (ven : String) (r : OfferedReport) (s : σ) (vs : List Value)
    (hn : r.reportName = "METADATA_TELEMETRY_STATUS" ∨ r.reportName = "METADATA_TELEMETRY_USAGE") (hp : r.noPoints = false)
    (hx : (askPointsAsync h other turns ven (decide (r.reportName = "METADATA_TELEMETRY_STATUS")) r.points s).2 = some (.ok vs)) :
    choicesFor h0 true ven r = .ok (some (withIds r.points (tuplesOnly vs))) := by
  have := (c98_same h h0 hh other turns ven _ r.points s _ hx vs).mp rfl
  unfold choicesFor
  rw [if_pos hn]
  simp only [if_true, hp, Bool.false_eq_true, if_false, this]

/-! ### What exceptions do -/

/-- **C98.** If the handler is `async` and the data of one data point is not complete, no handler runs at all: those made for the data points before
    are dropped. -/
theorem c98_dropped (h : ReportAsk → σ → σ × Called σ) (hh : ∀ a s, ∃ c, h a s = (s, .coroutine c)) (other : Nat → σ → σ) (turns : List Nat)
    (ven : String) (status : Bool) (ps : List OfferedPoint) (s : σ) (p : OfferedPoint) (e : Err) (hp : p ∈ ps) (hb : askOf ven status p = .error e) :
    ∃ e', askPointsAsync h other turns ven status ps s = (s, some (.error e')) := by
  have : ∃ e', callPoints h ven status ps s = (s, .error e') := by
    induction ps with
    | nil => simp at hp
    | cons q qs ih =>
      unfold callPoints
      cases ha : askOf ven status q with
      | error e' => exact ⟨e', rfl⟩
      | ok a =>
        obtain ⟨c, hc⟩ := hh a s
        rcases List.mem_cons.mp hp with rfl | hm
        · rw [hb] at ha; simp at ha
        · obtain ⟨e', he⟩ := ih hm
          exact ⟨e', by simp only [hc, he]⟩
  obtain ⟨e', he⟩ := this
  exact ⟨e', by unfold askPointsAsync; rw [he]⟩

/-- A coroutine that waits once and then fails. -/
def failsLater (σ : Type) (e : Err) : Co σ := .pause (fun s => s) (fun _ => .finish (fun s => (s, .error e)))

/-- A coroutine that fails at once. -/
def failsNow (σ : Type) (e : Err) : Co σ := .finish (fun s => (s, .error e))

/-- **C98, refuted** for the exception of the first data point: an `async` handler raises `e₁` for the first data point, `e₂` for the second; written
    as plain function it makes the registration fail with `e₁`, as coroutine with `e₂` if the first one happens to wait for something. Which
    exception is logged depends on the event loop. -/
theorem c98_first_error_violated (σ : Type) (s : σ) (e₁ e₂ : Err) (hne : e₁ ≠ e₂) (ven : String) (status : Bool) (p q : OfferedPoint) (a b : ReportAsk)
    (hp : askOf ven status p = .ok a) (hq : askOf ven status q = .ok b) (hab : a ≠ b) (other : Nat → σ → σ) :
    ∃ (h : ReportAsk → σ → σ × Called σ) (h0 : ReportAsk → Res Value) (turns : List Nat),
      (∀ x s, StandsFor (h x s).2 (h0 x)) ∧ askPoints h0 ven status [p, q] = .error e₁ ∧
      (askPointsAsync h other turns ven status [p, q] s).2 = some (.error e₂) ∧ e₁ ≠ e₂ := by
  refine ⟨fun x s => (s, .coroutine (if x = a then failsLater σ e₁ else failsNow σ e₂)), fun x => if x = a then .error e₁ else .error e₂, [0, 1],
    fun x s => ?_, ?_, ?_, hne⟩
  · by_cases hx : x = a
    · simp only [if_pos hx, StandsFor]
      intro r' hr
      cases hr with
      | pause _ _ s' _ h' => cases h' with | finish _ s'' => rfl
    · simp only [if_neg hx, StandsFor]
      intro r' hr
      cases hr with
      | finish _ s'' => rfl
  · rw [askPoints_cons, hp]
    simp
  · unfold askPointsAsync callPoints
    rw [hp]
    simp only [callPoints, hq, if_true, if_neg (Ne.symm hab)]
    rfl

theorem runs_on (c : Co σ) (s : σ) (rest : List (Task σ)) (fl : Option Err) :
    ∃ n r fl', (Gathering.turns ⟨s, .running c :: rest, fl⟩ (List.replicate n 0)) = ⟨(c.await (fun _ s => s) 0 s).1, .ended r :: rest, fl'⟩ := by
  have key : ∀ (c : Co σ) (s : σ) (fl : Option Err) (m : Nat),
      ∃ n r fl', (Gathering.turns ⟨s, .running c :: rest, fl⟩ (List.replicate n 0)) = ⟨(c.await (fun _ s => s) m s).1, .ended r :: rest, fl'⟩ := by
    intro c
    induction c with
    | finish f => intro s fl m; exact ⟨1, (f s).2, _, rfl⟩
    | pause f k ih =>
      intro s fl m
      obtain ⟨n, r, fl', hn⟩ := ih (f s) (f s) (match fl with | some e => some e | none => none) (m + 1)
      exact ⟨n + 1, r, fl', hn⟩
  exact key c s fl 0

/-- **C98, refuted** for the end of a failed registration: when a coroutine fails, the registration fails at once, but the other coroutines keep
    running. For every other coroutine `c` there are turns of the event loop after which the exception has been handed on and `c` has not yet
    begun, and further ones in which it runs to its end all the same: what it does to the state, it does after the VEN has got its error. -/
theorem c98_still_running_violated (c : Co σ) (f : σ → σ × Res Value) (e : Err) (s : σ) (hf : (f s).2 = .error e) :
    ∃ more, ((gatherStart [c, .finish f] s).turns [1]).outcome = some (.error e) ∧
      ((gatherStart [c, .finish f] s).turns [1]).state = (f s).1 ∧
      ((gatherStart [c, .finish f] s).turns ([1] ++ more)).outcome = some (.error e) ∧
      ((gatherStart [c, .finish f] s).turns ([1] ++ more)).state = (c.await (fun _ s => s) 0 (f s).1).1 := by
  have h1 : (gatherStart [c, .finish f] s).turns [1] = ⟨(f s).1, [.running c, .ended (.error e)], some e⟩ := by
    simp [gatherStart, Gathering.turns, Gathering.turn, Task.run, Task.error?, hf]
  obtain ⟨n, r, fl', hn⟩ := runs_on c (f s).1 [.ended (.error e)] (some e)
  have ho : ((gatherStart [c, .finish f] s).turns [1]).outcome = some (.error e) := by rw [h1]; rfl
  refine ⟨List.replicate n 0, ho, by rw [h1], c98_final _ s [1] _ _ ho, ?_⟩
  rw [turns_append, h1, hn]

/-- **C98.** One after the other, as for a list of plain values and coroutines mixed, nothing runs after the exception. -/
theorem c98_mixed_stops (other : Nat → σ → σ) (n : Nat) (before after : List (Called σ)) (r : Called σ) (s : σ) (e : Err)
    (h : StandsFor r (.error e)) : ∃ e', awaitEach other n (before ++ r :: after) s = ((awaitEach other n (before ++ [r]) s).1, .error e') := by
  induction before generalizing n s with
  | nil =>
    have := awaitIfRequired_stands other n r s _ h
    simp only [List.nil_append, awaitEach]
    generalize awaitIfRequired other n r s = x at this
    obtain ⟨s', n', y⟩ := x
    simp only at this
    subst this
    exact ⟨e, rfl⟩
  | cons b before ih =>
    simp only [List.cons_append, awaitEach]
    generalize awaitIfRequired other n b s = x
    obtain ⟨s', n', y⟩ := x
    cases y with
    | error e' => exact ⟨e', rfl⟩
    | ok v =>
      obtain ⟨e', he⟩ := ih n' s'
      simp only [he]
      refine ⟨e', ?_⟩
      generalize awaitEach other n' (before ++ [r]) s' = z
      obtain ⟨s'', z⟩ := z
      cases z <;> rfl

/-- Two coroutines over a counter: the first waits twice, the second answers at once. -/
def slowAndFast : List (Co Nat) :=
  [.pause (· + 1) (fun _ => .pause (· + 10) (fun _ => .finish (fun s => (s, .ok (.str "first"))))), .finish (fun s => (s + 100, .ok (.int s)))]

/-- `c98_order`, `c98_final`: the second one ends before the first; its value still comes second. Both have run, and the first is waited for. -/
example : ((gatherStart slowAndFast 0).turns [0, 1, 0]).outcome = none ∧
    ((gatherStart slowAndFast 0).turns [0, 1, 0, 0]).outcome = some (.ok [.str "first", .int 1]) ∧
    ((gatherStart slowAndFast 0).turns [1, 0, 0, 0, 1]).outcome = some (.ok [.str "first", .int 0]) ∧
    ((gatherStart slowAndFast 0).turns [0, 1, 0, 0]).state = 111 := ⟨rfl, rfl, rfl, rfl⟩

/-- `c98_ends`: a schedule that takes turns is fair for both. -/
example : FairFor 2 (fun n => n % 2) := fun i hi t => ⟨2 * t + i, by omega, by show (2 * t + i) % 2 = i; omega⟩

end Openleadr
