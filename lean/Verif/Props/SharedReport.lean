import Verif.Model.SharedReport
/-!
C99 for runs of `update_report` that overlap although they are for the same request, while its report is being compiled
(openleadr/client.py:848-930).
-/
namespace Openleadr

/-! ### Specification -/

/-- The samples answered in a history, in the order of the answers. -/
def answeredSamples : List CompileStep → List OutInterval
  | [] => []
  | .adds _ vs :: r => vs ++ answeredSamples r
  | _ :: r => answeredSamples r

/-- Only runs that have begun and not yet ended get answers or end; `next` is the number of the next run, `live` are those that have begun and
    not ended. -/
def InTurn : Nat → List Nat → List CompileStep → Prop
  | _, _, [] => True
  | next, live, .begins :: r => InTurn (next + 1) (next :: live) r
  | next, live, .adds k _ :: r => k ∈ live ∧ InTurn next live r
  | next, live, .ends k :: r => k ∈ live ∧ InTurn next (live.filter (fun j => decide (j ≠ k))) r

/-- Every run is at work on report `o` and its list `l`, which has samples; `o` is the one in progress. -/
structure AllShare (o l : Nat) (live : List Nat) (x : Compiling) : Prop where
  progress : x.progress = some o
  object : x.objects.getD o 0 = l
  valid : o < x.objects.length
  list : l < x.lists.length
  some : x.lists.getD l [] ≠ []
  runs : ∀ k r, x.runs.getD k none = Option.some r → r = (o, l)
  live : ∀ k, k ∈ live → x.runs.getD k none = Option.some (o, l)

theorem set_getD_self {α : Type _} (l : List α) (i : Nat) (a d : α) (h : i < l.length) : (l.set i a).getD i d = a := by
  simp [List.getD, h]

theorem set_getD_ne {α : Type _} (l : List α) (i j : Nat) (a d : α) (h : i ≠ j) : (l.set i a).getD j d = l.getD j d := by
  simp [List.getD, List.getElem?_set_ne h]

theorem append_getD_old {α : Type _} (l : List α) (a d : α) (k : Nat) (h : k ≠ l.length) : (l ++ [a]).getD k d = l.getD k d := by
  simp only [List.getD]
  rcases Nat.lt_or_gt_of_ne h with h | h
  · rw [List.getElem?_append_left h]
  · rw [List.getElem?_eq_none (by simp; omega), List.getElem?_eq_none (by omega)]

theorem append_getD_new {α : Type _} (l : List α) (a d : α) : (l ++ [a]).getD l.length d = a := by simp [List.getD]

/-- A run begins. -/
theorem share_begins {n o l : Nat} {live : List Nat} {x : Compiling} (h : AllShare o l live x) :
    AllShare o l (x.runs.length :: live) (x.step n .begins) ∧ (x.step n .begins).lists = x.lists ∧
      (x.step n .begins).queued = x.queued ∧ (x.step n .begins).runs.length = x.runs.length + 1 := by
  have e : x.step n .begins = { x with runs := x.runs ++ [some (o, l)] } := by
    unfold Compiling.step
    simp only [h.progress, h.object, if_neg h.some]
  rw [e]
  refine ⟨⟨h.progress, h.object, h.valid, h.list, h.some, fun k r hk => ?_, fun k hk => ?_⟩, rfl, rfl, by simp⟩
  · by_cases hkl : k = x.runs.length
    · subst hkl
      simp only [append_getD_new] at hk
      exact (Option.some.inj hk).symm
    · simp only [append_getD_old _ _ _ _ hkl] at hk
      exact h.runs k r hk
  · rcases List.mem_cons.mp hk with rfl | hk
    · exact append_getD_new _ _ _
    · have := h.live k hk
      by_cases hkl : k = x.runs.length
      · subst hkl; exact append_getD_new _ _ _
      · simp only [append_getD_old _ _ _ _ hkl]; exact this

/-- A run gets samples, if there is such a run. -/
theorem share_adds {n o l : Nat} {live : List Nat} {x : Compiling} (h : AllShare o l live x) (k : Nat) (vs : List OutInterval) :
    AllShare o l live (x.step n (.adds k vs)) ∧ (x.step n (.adds k vs)).queued = x.queued ∧ (x.step n (.adds k vs)).runs = x.runs ∧
      (x.step n (.adds k vs)).lists.getD l [] = x.lists.getD l [] ++ (if x.runs.getD k none = none then [] else vs) := by
  cases hr : x.runs.getD k none with
  | none =>
    have e : x.step n (.adds k vs) = x := by unfold Compiling.step; simp only [hr]
    rw [e]
    exact ⟨h, rfl, rfl, by simp⟩
  | some r =>
    have := h.runs k r hr
    subst this
    have e : x.step n (.adds k vs) = { x with lists := x.lists.set l (x.lists.getD l [] ++ vs) } := by unfold Compiling.step; simp only [hr]
    rw [e]
    have hl : (x.lists.set l (x.lists.getD l [] ++ vs)).getD l [] = x.lists.getD l [] ++ vs := set_getD_self _ _ _ _ h.list
    refine ⟨⟨h.progress, h.object, h.valid, by simpa using h.list, ?_, h.runs, h.live⟩, rfl, rfl, by simp only [hl]; simp⟩
    simp only [hl]
    intro hc
    exact h.some (List.append_eq_nil_iff.mp hc).1

/-- A run ends, and the report does not have just the number of samples it needs. -/
theorem share_ends {n o l : Nat} {live : List Nat} {x : Compiling} (h : AllShare o l live x) (k : Nat) (hn : (x.lists.getD l []).length ≠ n) :
    AllShare o l (live.filter (fun j => decide (j ≠ k))) (x.step n (.ends k)) ∧ (x.step n (.ends k)).lists = x.lists ∧
      (x.step n (.ends k)).queued = x.queued ∧ (x.step n (.ends k)).runs.length = x.runs.length := by
  cases hr : x.runs.getD k none with
  | none =>
    have e : x.step n (.ends k) = x := by unfold Compiling.step; simp only [hr]
    rw [e]
    exact ⟨⟨h.progress, h.object, h.valid, h.list, h.some, h.runs, fun j hj => h.live j (List.mem_filter.mp hj).1⟩, rfl, rfl, rfl⟩
  | some r =>
    have := h.runs k r hr
    subst this
    have e : x.step n (.ends k) = { x with objects := x.objects.set o l, runs := x.runs.set k none, progress := some o } := by
      unfold Compiling.step; simp only [hr, if_neg hn]
    rw [e]
    have hk : k < x.runs.length := by
      rcases Nat.lt_or_ge k x.runs.length with hk | hk
      · exact hk
      · simp [List.getD, List.getElem?_eq_none hk] at hr
    refine ⟨⟨rfl, set_getD_self _ _ _ _ h.valid, by simpa using h.valid, h.list, h.some, fun j r hj => ?_, fun j hj => ?_⟩, rfl, rfl, by simp⟩
    · by_cases hjk : k = j
      · subst hjk
        simp only [set_getD_self _ _ _ _ hk] at hj
        simp at hj
      · simp only [set_getD_ne _ _ _ _ _ hjk] at hj
        exact h.runs j r hj
    · obtain ⟨hj, hjk⟩ := List.mem_filter.mp hj
      simp only [set_getD_ne _ _ _ _ _ (Ne.symm (by simpa using hjk) : k ≠ j)]
      exact h.live j hj

theorem share_run {n o l : Nat} (steps rest : List CompileStep) : ∀ {live : List Nat} {x : Compiling}, AllShare o l live x →
    InTurn x.runs.length live (steps ++ rest) → (x.lists.getD l []).length + (answeredSamples steps).length < n →
    (∃ live', AllShare o l live' (x.run n steps) ∧ InTurn (x.run n steps).runs.length live' rest) ∧ (x.run n steps).lists.getD l [] = x.lists.getD l [] ++ answeredSamples steps ∧
      (x.run n steps).queued = x.queued := by
  induction steps with
  | nil => intro live x h ht _; exact ⟨⟨live, h, ht⟩, by simp [Compiling.run, answeredSamples], rfl⟩
  | cons s r ih =>
    intro live x h ht hn
    have hrun : x.run n (s :: r) = (x.step n s).run n r := rfl
    rw [hrun]
    cases s with
    | begins =>
      obtain ⟨h1, h2, h3, h4⟩ := share_begins (n := n) h
      have := ih h1 (by rw [h4]; exact ht) (by rw [h2]; exact hn)
      rw [h2, h3] at this
      exact this
    | adds k vs =>
      obtain ⟨h1, h3, h4, h5⟩ := share_adds (n := n) h k vs
      have hlive := h.live k ht.1
      rw [if_neg (by rw [hlive]; simp)] at h5
      have := ih h1 (by rw [h4]; exact ht.2) (by rw [h5]; simp only [answeredSamples, List.length_append] at hn ⊢; omega)
      rw [h5, h3] at this
      simpa [answeredSamples] using this
    | ends k =>
      obtain ⟨h1, h2, h3, h4⟩ := share_ends (n := n) h k (by omega)
      have := ih h1 (by rw [h4]; exact ht.2) (by rw [h2]; exact hn)
      rw [h2, h3] at this
      exact this

/-- **C99** (partial: the report must have a first sample, and must not yet be complete). Runs of `update_report` for one and the same request
    may also overlap in every way once the report in progress has a sample: until it is complete, it gets all their samples, in the order in
    which the callbacks answer, and it stays the one in progress. -/
theorem c99_shared_partial {n o l : Nat} {x : Compiling} (h : AllShare o l [] x) (steps : List CompileStep) (ht : InTurn x.runs.length [] steps)
    (hn : (x.intervals o).length + (answeredSamples steps).length < n) :
    (x.run n steps).intervals o = x.intervals o ++ answeredSamples steps ∧ (x.run n steps).progress = some o ∧ (x.run n steps).queued = x.queued := by
  have hx : x.intervals o = x.lists.getD l [] := by unfold Compiling.intervals; rw [h.object]
  rw [hx] at hn ⊢
  obtain ⟨⟨live, h1, _⟩, h2, h3⟩ := share_run steps [] h (by simpa using ht) hn
  refine ⟨?_, h1.progress, h3⟩
  unfold Compiling.intervals
  rw [h1.object, h2]

/-- **C99** (partial: as above, and no other run must be waiting when the report becomes complete, see `c99_queued_violated`). After any such
    history, when a run gets the samples that were missing, the one that ends next queues the report with all samples of all runs, and no
    report is in progress any more. -/
theorem c99_shared_complete_partial {n o l : Nat} {x : Compiling} (h : AllShare o l [] x) (steps : List CompileStep) (k j : Nat) (vs : List OutInterval)
    (ht : InTurn x.runs.length [] (steps ++ [.adds k vs, .ends j])) (hv : vs ≠ [])
    (hn : (x.intervals o).length + (answeredSamples steps).length + vs.length = n) :
    let y := x.run n (steps ++ [.adds k vs, .ends j])
    y.queued = x.queued ++ [o] ∧ y.intervals o = x.intervals o ++ answeredSamples steps ++ vs ∧ y.progress = none := by
  intro y
  have hx : x.intervals o = x.lists.getD l [] := by unfold Compiling.intervals; rw [h.object]
  rw [hx] at hn ⊢
  have hpos : 0 < vs.length := List.length_pos_iff.mpr hv
  obtain ⟨⟨live, h1, t1⟩, h2, h3⟩ := share_run (n := n) steps [.adds k vs, .ends j] h ht (by omega)
  obtain ⟨a1, a3, _, a5⟩ := share_adds (n := n) h1 k vs
  rw [if_neg (by rw [h1.live k t1.1]; simp), h2] at a5
  have hj := a1.live j t1.2.1
  have ey : y = ((x.run n steps).step n (.adds k vs)).step n (.ends j) := by
    simp only [y, Compiling.run, List.foldl_append, List.foldl_cons, List.foldl_nil]
  have hlen : (((x.run n steps).step n (.adds k vs)).lists.getD l []).length = n := by
    rw [a5]; simp only [List.length_append]; omega
  generalize (x.run n steps).step n (.adds k vs) = z at *
  have e : z.step n (.ends j) = { z with objects := z.objects.set o l, runs := z.runs.set j none, queued := z.queued ++ [o], progress := none } := by
    unfold Compiling.step
    simp only [hj, if_pos hlen, a1.progress]
  rw [ey, e]
  refine ⟨by simp only [a3, h3], ?_, rfl⟩
  unfold Compiling.intervals
  simp only [set_getD_self _ _ _ _ a1.valid, a5]

/-- A report in progress with more samples than it needs stays in progress, whatever happens. -/
theorem share_over {n o l : Nat} (steps : List CompileStep) : ∀ {x : Compiling}, AllShare o l [] x → n < (x.lists.getD l []).length →
    AllShare o l [] (x.run n steps) ∧ n < ((x.run n steps).lists.getD l []).length ∧ (x.run n steps).queued = x.queued := by
  induction steps with
  | nil => intro x h hn; exact ⟨h, hn, rfl⟩
  | cons s r ih =>
    intro x h hn
    have hrun : x.run n (s :: r) = (x.step n s).run n r := rfl
    rw [hrun]
    cases s with
    | begins =>
      obtain ⟨h1, h2, h3, _⟩ := share_begins (n := n) h
      have := ih ⟨h1.progress, h1.object, h1.valid, h1.list, h1.some, h1.runs, by simp⟩ (by rw [h2]; exact hn)
      rw [h3] at this
      exact this
    | adds k vs =>
      obtain ⟨h1, h3, _, h5⟩ := share_adds (n := n) h k vs
      have := ih h1 (by rw [h5, List.length_append]; omega)
      rw [h3] at this
      exact this
    | ends k =>
      obtain ⟨h1, h2, h3, _⟩ := share_ends (n := n) h k (by omega)
      have := ih (by simpa using h1) (by rw [h2]; exact hn)
      rw [h3] at this
      exact this

/-- **C99, refuted** for two runs of one request that wait for their callbacks when the report lacks one sample: the one that ends first
    completes and queues it; the other adds its sample to the report that is already queued, so that it goes out with one too many if it
    has not been sent yet, and puts it back among those in progress. From then on it never has the right number again: whatever happens, no report for the request is ever queued
    again. -/
theorem c99_queued_violated {n o l : Nat} {x : Compiling} (h : AllShare o l [] x) (hn : (x.intervals o).length + 1 = n) (v w : OutInterval)
    (later : List CompileStep) :
    let k := x.runs.length
    let y := x.run n [.begins, .begins, .adds k [v], .ends k, .adds (k + 1) [w], .ends (k + 1)]
    y.queued = x.queued ++ [o] ∧ y.intervals o = x.intervals o ++ [v, w] ∧ y.progress = some o ∧ (y.run n later).queued = x.queued ++ [o] := by
  intro k y
  have hx : x.intervals o = x.lists.getD l [] := by unfold Compiling.intervals; rw [h.object]
  rw [hx] at hn ⊢
  have ey : y = { x with lists := (x.lists.set l (x.lists.getD l [] ++ [v])).set l ((x.lists.getD l [] ++ [v]) ++ [w]),
                         objects := (x.objects.set o l).set o l, runs := ((x.runs ++ [some (o, l)] ++ [some (o, l)]).set k none).set (k + 1) none,
                         queued := x.queued ++ [o], progress := some o } := by
    have r0 : (x.runs ++ [some (o, l)] ++ [some (o, l)]).getD k none = some (o, l) := by simp [k, List.getD]
    have r1 : ((x.runs ++ [some (o, l)] ++ [some (o, l)]).set k none).getD (k + 1) none = some (o, l) := by
      rw [set_getD_ne _ _ _ _ _ (by omega)]; simp [k, List.getD]
    have l1 : (x.lists.set l (x.lists.getD l [] ++ [v])).getD l [] = x.lists.getD l [] ++ [v] := set_getD_self _ _ _ _ h.list
    have l2 : ((x.lists.set l (x.lists.getD l [] ++ [v])).set l ((x.lists.getD l [] ++ [v]) ++ [w])).getD l [] = (x.lists.getD l [] ++ [v]) ++ [w] :=
      set_getD_self _ _ _ _ (by simpa using h.list)
    have n1 : (x.lists.getD l [] ++ [v]).length = n := by simpa using hn
    have n2 : ((x.lists.getD l [] ++ [v]) ++ [w]).length ≠ n := by simp only [List.length_append, List.length_singleton] at *; omega
    simp only [y, Compiling.run, List.foldl_cons, List.foldl_nil]
    simp only [Compiling.step, h.progress, h.object, if_neg h.some, r0, r1, l1, l2, if_pos n1, if_neg n2]
  have l2 : y.lists.getD l [] = x.lists.getD l [] ++ [v, w] := by
    rw [ey]
    simp only [set_getD_self _ _ _ _ (by simpa using h.list : l < (x.lists.set l (x.lists.getD l [] ++ [v])).length), List.append_assoc,
      List.cons_append, List.nil_append]
  have ho : y.objects.getD o 0 = l := by rw [ey]; exact set_getD_self _ _ _ _ (by simpa using h.valid)
  have hy : AllShare o l [] y := by
    refine ⟨by rw [ey], ho, by rw [ey]; simpa using h.valid, by rw [ey]; simpa using h.list, by rw [l2]; simp, fun j r hj => ?_, by simp⟩
    rw [ey] at hj
    simp only [] at hj
    by_cases h1 : k + 1 = j
    · subst h1
      rw [set_getD_self _ _ _ _ (by simp [k])] at hj
      simp at hj
    · rw [set_getD_ne _ _ _ _ _ h1] at hj
      by_cases h0 : k = j
      · subst h0
        rw [set_getD_self _ _ _ _ (by simp [k])] at hj
        simp at hj
      · rw [set_getD_ne _ _ _ _ _ h0, append_getD_old _ _ _ _ (by simp; omega), append_getD_old _ _ _ _ (by omega)] at hj
        exact h.runs j r hj
  have hq : y.queued = x.queued ++ [o] := by rw [ey]
  refine ⟨hq, ?_, hy.progress, ?_⟩
  · unfold Compiling.intervals; rw [ho, l2]
  · obtain ⟨_, _, h3⟩ := share_over (n := n) later hy (by rw [l2, List.length_append]; simp only [List.length_cons, List.length_nil]; omega)
    rw [h3, hq]

/-- A sample taken at `t`. -/
def sampleAt (t : Int) : OutInterval := ⟨t, .str "r", .int t, none⟩

/-- One run has been made, and has left a report with one sample in progress. -/
def oneSample (n : Nat) : Compiling := Compiling.run n {} [.begins, .adds 0 [sampleAt 1], .ends 0]

theorem oneSample_shares (n : Nat) (h : n ≠ 1) : AllShare 0 1 [] (oneSample n) := by
  have e : oneSample n = { lists := [[], [sampleAt 1]], objects := [1], progress := some 0, queued := [], runs := [none] } := by
    unfold oneSample Compiling.run
    simp [Compiling.step, Ne.symm h]
  rw [e]
  refine ⟨rfl, rfl, by simp, by simp, by simp, fun k r hk => ?_, by simp⟩
  cases k with
  | zero => simp at hk
  | succ k => simp at hk

/-- `c99_shared_partial`: two runs that overlap, the second ending before the first, for a report of five samples. -/
example : InTurn (oneSample 5).runs.length [] [.begins, .begins, .adds 2 [sampleAt 2], .ends 2, .adds 1 [sampleAt 3], .ends 1] ∧
    ((oneSample 5).run 5 [.begins, .begins, .adds 2 [sampleAt 2], .ends 2, .adds 1 [sampleAt 3], .ends 1]).intervals 0 =
      [sampleAt 1, sampleAt 2, sampleAt 3] ∧ AllShare 0 1 [] (oneSample 5) :=
  ⟨by simp [oneSample, Compiling.run, Compiling.step, InTurn], by decide +kernel, oneSample_shares 5 (by decide)⟩

/-- `c99_shared_complete_partial`: the same, and the fourth sample completes a report of four. -/
example : let y := (oneSample 4).run 4 [.begins, .begins, .adds 2 [sampleAt 2], .ends 2, .adds 1 [sampleAt 3, sampleAt 4], .ends 1]
    y.queued.map y.intervals = [[sampleAt 1, sampleAt 2, sampleAt 3, sampleAt 4]] ∧ y.progress = none :=
  ⟨by decide +kernel, by decide +kernel⟩

/-- `c99_queued_violated`: a report of two samples goes out with three; and two more runs, one after the other, queue nothing. -/
example : (oneSample 2).intervals 0 = [sampleAt 1] ∧
    ((oneSample 2).run 2 [.begins, .begins, .adds 1 [sampleAt 2], .ends 1, .adds 2 [sampleAt 3], .ends 2, .begins, .adds 3 [sampleAt 4], .ends 3,
      .begins, .adds 4 [sampleAt 5], .ends 4]).queued = [0] :=
  ⟨by decide +kernel, by decide +kernel⟩

/-- One after the other, the same five samples make two reports, and a third one begun. -/
example : let y := (oneSample 2).run 2 [.begins, .adds 1 [sampleAt 2], .ends 1, .begins, .adds 2 [sampleAt 3], .ends 2, .begins, .adds 3 [sampleAt 4],
      .ends 3, .begins, .adds 4 [sampleAt 5], .ends 4]
    y.queued.map y.intervals = [[sampleAt 1, sampleAt 2], [sampleAt 3, sampleAt 4]] :=
  by decide +kernel

end Openleadr
