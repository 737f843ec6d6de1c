import Verif.Props.SharedReport
import Verif.Props.Sampling
/-!
C99: the report objects of `Compiling`, with runs of `update_report` one after the other, and the reports of `updateReport`
(openleadr/client.py:848-930).
-/
namespace Openleadr

/-! ### Specification -/

/-- A report that is held back until it has `n` samples, without objects: the samples of the one in progress, and those of the reports queued.
    A run adds its samples. A first run that would complete the report at once raises a `KeyError` instead (client.py:924). -/
def oneRun (n : Nat) (st : Option (List OutInterval) × List (List OutInterval)) (samples : List OutInterval) :
    Option (List OutInterval) × List (List OutInterval) :=
  if (st.1.getD [] ++ samples).length = n then
    match st.1 with
    | none => st
    | some old => (none, st.2 ++ [old ++ samples])
  else (some (st.1.getD [] ++ samples), st.2)

/-- A run with the number `k` from beginning to end; `answers` are those of its callbacks. -/
def wholeRun (k : Nat) (answers : List (List OutInterval)) : List CompileStep :=
  .begins :: (answers.map (fun a => .adds k a) ++ [.ends k])

/-- Runs one after the other, numbered from `k` on. -/
def wholeRuns : Nat → List (List (List OutInterval)) → List CompileStep
  | _, [] => []
  | k, a :: as => wholeRun k a ++ wholeRuns (k + 1) as

/-! ### Between two runs, and during one -/

/-- No two reports have the same list. -/
structure Tidy (x : Compiling) : Prop where
  valid : ∀ p, p < x.objects.length → x.objects.getD p 0 < x.lists.length
  apart : ∀ p q, p < x.objects.length → q < x.objects.length → p ≠ q → x.objects.getD p 0 ≠ x.objects.getD q 0
  queued : ∀ p, p ∈ x.queued → p < x.objects.length
  progress : ∀ p, x.progress = some p → p < x.objects.length ∧ p ∉ x.queued

/-- Run `k` works on report `o` with list `l`, which has the intervals `acc`; no other report has this list. -/
structure Busy (x : Compiling) (k o l : Nat) (acc : List OutInterval) (st : Option (List OutInterval) × List (List OutInterval)) : Prop where
  tidy : Tidy x
  run : x.runs.getD k none = some (o, l)
  object : o < x.objects.length
  list : l < x.lists.length
  alone : ∀ p, p < x.objects.length → p ≠ o → x.objects.getD p 0 ≠ l
  acc : x.lists.getD l [] = acc
  fresh : o ∉ x.queued
  queue : x.queued.map x.intervals = st.2
  progress : x.progress = if st.1 = none then none else some o

theorem append_getD_lt {α : Type _} (l r : List α) (d : α) (k : Nat) (h : k < l.length) : (l ++ r).getD k d = l.getD k d := by
  simp only [List.getD]
  rw [List.getElem?_append_left h]

theorem busy_begins {n : Nat} {x : Compiling} (h : Tidy x) {st : Option (List OutInterval) × List (List OutInterval)}
    (hp : x.progress.map x.intervals = st.1) (hq : x.queued.map x.intervals = st.2) :
    ∃ o l, Busy (x.step n .begins) x.runs.length o l (st.1.getD []) st ∧ (x.step n .begins).runs.length = x.runs.length + 1 := by
  cases hx : x.progress with
  | some o =>
    obtain ⟨ho, hoq⟩ := h.progress o hx
    have h1 : st.1 = some (x.intervals o) := by rw [← hp, hx]; rfl
    by_cases he : x.lists.getD (x.objects.getD o 0) [] = []
    · have e : x.step n .begins = { x with lists := x.lists ++ [[]], runs := x.runs ++ [some (o, x.lists.length)] } := by
        unfold Compiling.step; simp only [hx, if_pos he]
      rw [e]
      refine ⟨o, x.lists.length, ⟨⟨fun p hp' => ?_, h.apart, h.queued, h.progress⟩, append_getD_new _ _ _, ho, by simp, fun p hp' _ => ?_, ?_, hoq, ?_, ?_⟩, by simp⟩
      · have := h.valid p hp'
        simp only [List.length_append, List.length_singleton]; omega
      · have := h.valid p hp'
        simp only []; omega
      · simp only [append_getD_new, h1, Option.getD_some]
        unfold Compiling.intervals
        exact he.symm
      · rw [← hq]
        refine List.map_congr_left (fun p hpq => ?_)
        unfold Compiling.intervals
        simp only [append_getD_lt _ _ _ _ (h.valid p (h.queued p hpq))]
      · simp [h1, hx]
    · have e : x.step n .begins = { x with runs := x.runs ++ [some (o, x.objects.getD o 0)] } := by
        unfold Compiling.step; simp only [hx, if_neg he]
      rw [e]
      refine ⟨o, x.objects.getD o 0, ⟨⟨h.valid, h.apart, h.queued, h.progress⟩, append_getD_new _ _ _, ho, h.valid o ho,
        fun p hp' hpo => h.apart p o hp' ho hpo, ?_, hoq, hq, ?_⟩, by simp⟩
      · simp only [h1, Option.getD_some]; rfl
      · simp [h1, hx]
  | none =>
    have h1 : st.1 = none := by rw [← hp, hx]; rfl
    have e : x.step n .begins = { x with lists := x.lists ++ [[], []], objects := x.objects ++ [x.lists.length], runs := x.runs ++ [some (x.objects.length, x.lists.length + 1)] } := by
      unfold Compiling.step; simp only [hx]
    rw [e]
    have hnew : ∀ p, p < (x.objects ++ [x.lists.length]).length → p = x.objects.length ∨ p < x.objects.length := by
      intro p hp'; simp at hp'; omega
    have hobj : ∀ p, p < x.objects.length → (x.objects ++ [x.lists.length]).getD p 0 = x.objects.getD p 0 := fun p hp' => append_getD_lt _ _ _ _ hp'
    have hobj' : (x.objects ++ [x.lists.length]).getD x.objects.length 0 = x.lists.length := append_getD_new _ _ _
    refine ⟨x.objects.length, x.lists.length + 1, ⟨⟨fun p hp' => ?_, fun p q hp' hq' hpq => ?_, fun p hp' => ?_, fun p hp' => ?_⟩, append_getD_new _ _ _,
      by simp, by simp, fun p hp' hpo => ?_, ?_, fun hm => ?_, ?_, ?_⟩, by simp⟩
    · simp only [List.length_append, List.length_cons, List.length_nil]
      rcases hnew p hp' with rfl | hlt
      · rw [hobj']; omega
      · rw [hobj p hlt]; have := h.valid p hlt; omega
    · simp only []
      rcases hnew p hp' with rfl | hlt
      · rcases hnew q hq' with rfl | hlt'
        · exact absurd rfl hpq
        · rw [hobj', hobj q hlt']; have := h.valid q hlt'; omega
      · rcases hnew q hq' with rfl | hlt'
        · rw [hobj', hobj p hlt]; have := h.valid p hlt; omega
        · rw [hobj p hlt, hobj q hlt']; exact h.apart p q hlt hlt' hpq
    · have := h.queued p hp'
      simp only [List.length_append, List.length_singleton]; omega
    · simp only [hx] at hp'
      simp at hp'
    · rcases hnew p hp' with rfl | hlt
      · exact absurd rfl hpo
      · simp only []
        rw [hobj p hlt]; have := h.valid p hlt; omega
    · simp [h1, List.getD]
    · have := h.queued _ hm
      omega
    · rw [← hq]
      refine List.map_congr_left (fun p hpq => ?_)
      unfold Compiling.intervals
      have hv := h.queued p hpq
      simp only [hobj p hv, append_getD_lt _ _ _ _ (h.valid p hv)]
    · simp [h1, hx]

theorem busy_adds {n : Nat} {x : Compiling} {k o l : Nat} {acc : List OutInterval} {st : Option (List OutInterval) × List (List OutInterval)}
    (h : Busy x k o l acc st) (vs : List OutInterval) :
    Busy (x.step n (.adds k vs)) k o l (acc ++ vs) st ∧ (x.step n (.adds k vs)).runs.length = x.runs.length := by
  have e : x.step n (.adds k vs) = { x with lists := x.lists.set l (x.lists.getD l [] ++ vs) } := by unfold Compiling.step; simp only [h.run]
  rw [e]
  refine ⟨⟨⟨fun p hp => by simpa using h.tidy.valid p hp, h.tidy.apart, h.tidy.queued, h.tidy.progress⟩, h.run, h.object, by simpa using h.list, h.alone, ?_,
    h.fresh, ?_, h.progress⟩, rfl⟩
  · simp only [set_getD_self _ _ _ _ h.list, h.acc]
  · rw [← h.queue]
    refine List.map_congr_left (fun p hpq => ?_)
    unfold Compiling.intervals
    have hne : p ≠ o := fun he => h.fresh (he ▸ hpq)
    simp only [set_getD_ne _ _ _ _ _ (Ne.symm (h.alone p (h.tidy.queued p hpq) hne))]

theorem busy_answers {n : Nat} (answers : List (List OutInterval)) : ∀ {x : Compiling} {k o l : Nat} {acc : List OutInterval}
    {st : Option (List OutInterval) × List (List OutInterval)}, Busy x k o l acc st →
    Busy (x.run n (answers.map (fun a => .adds k a))) k o l (acc ++ answers.flatten) st ∧
      (x.run n (answers.map (fun a => .adds k a))).runs.length = x.runs.length := by
  induction answers with
  | nil => intro x k o l acc st h; simpa [Compiling.run] using h
  | cons a as ih =>
    intro x k o l acc st h
    obtain ⟨h1, h2⟩ := busy_adds (n := n) h a
    have := ih h1
    rw [h2] at this
    simpa [Compiling.run] using this

theorem busy_ends {n : Nat} {x : Compiling} {k o l : Nat} {acc samples : List OutInterval} {st : Option (List OutInterval) × List (List OutInterval)}
    (h : Busy x k o l acc st) (ha : acc = st.1.getD [] ++ samples) :
    Tidy (x.step n (.ends k)) ∧ (x.step n (.ends k)).progress.map (x.step n (.ends k)).intervals = (oneRun n st samples).1 ∧
      (x.step n (.ends k)).queued.map (x.step n (.ends k)).intervals = (oneRun n st samples).2 ∧ (x.step n (.ends k)).runs.length = x.runs.length := by
  have hset : ∀ p, (x.objects.set o l).getD p 0 = if p = o then l else x.objects.getD p 0 := by
    intro p
    by_cases hp : p = o
    · subst hp; rw [if_pos rfl, set_getD_self _ _ _ _ h.object]
    · rw [if_neg hp, set_getD_ne _ _ _ _ _ (Ne.symm hp)]
  have tvalid : ∀ p, p < (x.objects.set o l).length → (x.objects.set o l).getD p 0 < x.lists.length := by
    intro p hp
    rw [hset]
    split
    · exact h.list
    · exact h.tidy.valid p (by simpa using hp)
  have tapart : ∀ p q, p < (x.objects.set o l).length → q < (x.objects.set o l).length → p ≠ q → (x.objects.set o l).getD p 0 ≠ (x.objects.set o l).getD q 0 := by
    intro p q hp hq hpq
    rw [List.length_set] at hp hq
    rw [hset, hset]
    by_cases h1 : p = o
    · subst h1; rw [if_pos rfl, if_neg (Ne.symm hpq)]; exact Ne.symm (h.alone q hq (Ne.symm hpq))
    · rw [if_neg h1]
      by_cases h2 : q = o
      · subst h2; rw [if_pos rfl]; exact h.alone p hp hpq
      · rw [if_neg h2]; exact h.tidy.apart p q hp hq hpq
  have kept : ∀ (y : Compiling), y.lists = x.lists → y.objects = x.objects.set o l → y.intervals o = acc ∧ x.queued.map y.intervals = st.2 := by
    intro y hl ho
    refine ⟨?_, ?_⟩
    · unfold Compiling.intervals
      rw [hl, ho, hset, if_pos rfl, h.acc]
    · rw [← h.queue]
      refine List.map_congr_left (fun p hpq => ?_)
      unfold Compiling.intervals
      have hne : p ≠ o := fun he => h.fresh (he ▸ hpq)
      rw [hl, ho, hset, if_neg hne]
  by_cases hn : acc.length = n
  · have hn' : (x.lists.getD l []).length = n := by rw [h.acc]; exact hn
    cases hs : st.1 with
    | none =>
      have hpr : x.progress = none := by rw [h.progress, hs]; rfl
      have e : x.step n (.ends k) = { x with objects := x.objects.set o l, runs := x.runs.set k none } := by
        unfold Compiling.step; simp only [h.run, if_pos hn', hpr]
      have e1 : oneRun n st samples = st := by unfold oneRun; rw [← ha, if_pos hn, hs]
      rw [e, e1]
      refine ⟨⟨tvalid, tapart, fun p hp => by simpa using h.tidy.queued p hp, fun p hp => ?_⟩, ?_, (kept { x with objects := x.objects.set o l, runs := x.runs.set k none } rfl rfl).2, by simp⟩
      · simp only [hpr] at hp; simp at hp
      · simp [hpr, hs]
    | some old =>
      have hpr : x.progress = some o := by rw [h.progress, hs]; rfl
      have e : x.step n (.ends k) = { x with objects := x.objects.set o l, runs := x.runs.set k none, queued := x.queued ++ [o], progress := none } := by
        unfold Compiling.step; simp only [h.run, if_pos hn', hpr]
      have e1 : oneRun n st samples = (none, st.2 ++ [acc]) := by
        unfold oneRun; rw [← ha, if_pos hn, hs]; simp only [ha, hs, Option.getD_some]
      rw [e, e1]
      refine ⟨⟨tvalid, tapart, fun p hp => ?_, fun p hp => by simp at hp⟩, rfl, ?_, by simp⟩
      · rcases List.mem_append.mp hp with hp | hp
        · simpa using h.tidy.queued p hp
        · have : p = o := by simpa using hp
          subst this; simpa using h.object
      · obtain ⟨k1, k2⟩ := kept { x with objects := x.objects.set o l, runs := x.runs.set k none, queued := x.queued ++ [o], progress := none } rfl rfl
        simp only [List.map_append, List.map_cons, List.map_nil]
        rw [k1, k2]
  · have hn' : (x.lists.getD l []).length ≠ n := by rw [h.acc]; exact hn
    have e : x.step n (.ends k) = { x with objects := x.objects.set o l, runs := x.runs.set k none, progress := some o } := by
      unfold Compiling.step; simp only [h.run, if_neg hn']
    have e1 : oneRun n st samples = (some acc, st.2) := by unfold oneRun; rw [← ha, if_neg hn]
    rw [e, e1]
    obtain ⟨k1, k2⟩ := kept { x with objects := x.objects.set o l, runs := x.runs.set k none, progress := some o } rfl rfl
    refine ⟨⟨tvalid, tapart, fun p hp => by simpa using h.tidy.queued p hp, fun p hp => ?_⟩, ?_, k2, by simp⟩
    · have : o = p := by simpa using hp
      subst this
      exact ⟨by simpa using h.object, h.fresh⟩
    · simp only [Option.map_some, k1]

theorem whole_run {n : Nat} {x : Compiling} (h : Tidy x) {st : Option (List OutInterval) × List (List OutInterval)}
    (hp : x.progress.map x.intervals = st.1) (hq : x.queued.map x.intervals = st.2) (answers : List (List OutInterval)) :
    let y := x.run n (wholeRun x.runs.length answers)
    Tidy y ∧ y.progress.map y.intervals = (oneRun n st answers.flatten).1 ∧ y.queued.map y.intervals = (oneRun n st answers.flatten).2 ∧
      y.runs.length = x.runs.length + 1 := by
  intro y
  obtain ⟨o, l, h1, h2⟩ := busy_begins (n := n) h hp hq
  obtain ⟨h3, h4⟩ := busy_answers (n := n) answers h1
  obtain ⟨h5, h6, h7, h8⟩ := busy_ends (n := n) h3 rfl
  have ey : y = ((x.step n .begins).run n (answers.map (fun a => .adds x.runs.length a))).step n (.ends x.runs.length) := by
    simp only [y, wholeRun, Compiling.run, List.foldl_cons, List.foldl_append, List.foldl_nil]
  rw [ey]
  exact ⟨h5, h6, h7, by rw [h8, h4, h2]⟩

theorem whole_runs {n : Nat} (runs : List (List (List OutInterval))) : ∀ {x : Compiling}, Tidy x → ∀ {st : Option (List OutInterval) × List (List OutInterval)},
    x.progress.map x.intervals = st.1 → x.queued.map x.intervals = st.2 →
    let y := x.run n (wholeRuns x.runs.length runs)
    (y.progress.map y.intervals, y.queued.map y.intervals) = (runs.map List.flatten).foldl (oneRun n) st := by
  induction runs with
  | nil => intro x h st hp hq; simp [wholeRuns, Compiling.run, hp, hq]
  | cons a as ih =>
    intro x h st hp hq
    obtain ⟨h1, h2, h3, h4⟩ := whole_run (n := n) h hp hq a
    have := ih h1 h2 h3
    rw [h4] at this
    simpa [wholeRuns, Compiling.run, List.foldl_append] using this

/-- **C99** (partial: runs of one and the same request must not overlap). The objects that runs share do no harm when one run follows the other:
    every report queued, and the one in progress, have the samples of their own runs, and those of no other, in the order in which the
    callbacks answered; no report changes once it is queued. -/
theorem c99_serial_partial (n : Nat) (runs : List (List (List OutInterval))) :
    let y := Compiling.run n {} (wholeRuns 0 runs)
    (y.progress.map y.intervals, y.queued.map y.intervals) = (runs.map List.flatten).foldl (oneRun n) (none, []) :=
  whole_runs (x := {}) runs ⟨fun p hp => by simp at hp, fun p q hp => by simp at hp, fun p hp => by simp at hp, fun p hp => by simp at hp⟩ rfl rfl

/-- **C99** The same for `update_report` as a whole: what it does to the reports of a request whose callbacks all answer is `oneRun`. -/
theorem c99_update_one_run (user : Sampler) (now : Int) (s : VenReports) (q : Value) (rq : VenRequest) (report : VenReport)
    (hrq : s.requests.find? (fun r => decide (r.requestId = q)) = some rq)
    (hre : s.reports.find? (fun r => decide (Value.str r.specifierId = rq.specifierId)) = some report) (n : Nat)
    (he : expectedLen report.full rq.reportBack rq.granularity ((s.lists[rq.rIds]?).getD []).length = .ok (some (n : Int)))
    (calls : List SampleCall) (samples : List OutInterval)
    (hc : collect s user now rq report (((getIncomplete s.incomplete q).map OutReport.intervals).getD []) =
      (calls, ((getIncomplete s.incomplete q).map OutReport.intervals).getD [] ++ samples, .ok ())) :
    let s' := (updateReport user now s q).1
    ((getIncomplete s'.incomplete q).map OutReport.intervals, s'.pending.map OutReport.intervals) =
      oneRun n ((getIncomplete s.incomplete q).map OutReport.intervals, s.pending.map OutReport.intervals) samples := by
  intro s'
  have hout : ((getIncomplete s.incomplete q).getD ⟨q, report.specifierId, outName report.name, none, []⟩).intervals =
      ((getIncomplete s.incomplete q).map OutReport.intervals).getD [] := by
    cases getIncomplete s.incomplete q <;> rfl
  simp only [s', updateReport, hrq, hre, hout, hc, he]
  unfold oneRun
  cases hi : getIncomplete s.incomplete q with
  | none =>
    simp only [Option.map_none, Option.getD_none, List.nil_append]
    by_cases hn : samples.length = n
    · rw [if_pos hn, if_pos (by exact_mod_cast hn)]
      simp only [hi, Option.map_none]
    · rw [if_neg hn, if_neg (by exact_mod_cast hn)]
      simp only [getIncomplete_set_self, Option.map_some, finished]
  | some out =>
    simp only [Option.map_some, Option.getD_some]
    by_cases hn : (out.intervals ++ samples).length = n
    · rw [if_pos hn, if_pos (by exact_mod_cast hn)]
      simp only [List.map_append, List.map_cons, List.map_nil, finished]
      rw [show getIncomplete (eraseIncomplete s.incomplete q) q = none from ?_]
      · rfl
      · unfold eraseIncomplete
        generalize s.incomplete = d
        induction d with
        | nil => rfl
        | cons e r ih =>
          by_cases h : e.1 = q
          · rw [List.filter_cons_of_neg (by simp [h])]; exact ih
          · rw [List.filter_cons_of_pos (by simp [h])]
            unfold getIncomplete
            simp only [h, if_false]
            exact ih
    · rw [if_neg hn, if_neg (by exact_mod_cast hn)]
      simp only [getIncomplete_set_self, Option.map_some, finished]

/-- Two runs begin while no report is in progress; the first one ends with `us`, which do not complete the report. -/
theorem two_first_runs {n : Nat} {x : Compiling} (hx : x.progress = none) (us vs : List OutInterval) (hu : us.length ≠ n) :
    let k := x.runs.length
    let y := x.run n [.begins, .begins, .adds k us, .ends k, .adds (k + 1) vs]
    y.progress = some x.objects.length ∧ y.intervals x.objects.length = us ∧ y.queued = x.queued ∧ x.objects.length + 2 = y.objects.length ∧
      y.runs.getD (k + 1) none = some (x.objects.length + 1, x.lists.length + 3) ∧ y.lists.getD (x.lists.length + 3) [] = vs ∧
      y.objects.getD x.objects.length 0 = x.lists.length + 1 := by
  intro k y
  have ey : y = { lists := ((x.lists ++ [[], []] ++ [[], []]).set (x.lists.length + 1) us).set (x.lists.length + 3) vs,
                  objects := (x.objects ++ [x.lists.length] ++ [x.lists.length + 2]).set x.objects.length (x.lists.length + 1),
                  progress := some x.objects.length, queued := x.queued,
                  runs := (x.runs ++ [some (x.objects.length, x.lists.length + 1)] ++ [some (x.objects.length + 1, x.lists.length + 3)]).set k none } := by
    have r0 : (x.runs ++ [some (x.objects.length, x.lists.length + 1)] ++ [some (x.objects.length + 1, x.lists.length + 3)]).getD k none =
        some (x.objects.length, x.lists.length + 1) := by simp [k, List.getD]
    have r1 : ((x.runs ++ [some (x.objects.length, x.lists.length + 1)] ++ [some (x.objects.length + 1, x.lists.length + 3)]).set k none).getD (k + 1) none =
        some (x.objects.length + 1, x.lists.length + 3) := by
      rw [set_getD_ne _ _ _ _ _ (by omega)]; simp [k, List.getD]
    have l0 : (x.lists ++ [[], []] ++ [[], []]).getD (x.lists.length + 1) [] = [] := by simp [List.getD]
    have l1 : ((x.lists ++ [[], []] ++ [[], []]).set (x.lists.length + 1) us).getD (x.lists.length + 1) [] = us :=
      set_getD_self _ _ _ _ (by simp)
    have l2 : ((x.lists ++ [[], []] ++ [[], []]).set (x.lists.length + 1) us).getD (x.lists.length + 3) [] = [] := by
      rw [set_getD_ne _ _ _ _ _ (by omega)]; simp [List.getD]
    have e1 : x.step n .begins = { x with lists := x.lists ++ [[], []], objects := x.objects ++ [x.lists.length], runs := x.runs ++ [some (x.objects.length, x.lists.length + 1)] } := by
      unfold Compiling.step; simp only [hx]
    have e2 : (x.step n .begins).step n .begins = { x with lists := x.lists ++ [[], []] ++ [[], []], objects := x.objects ++ [x.lists.length] ++ [x.lists.length + 2], runs := x.runs ++ [some (x.objects.length, x.lists.length + 1)] ++ [some (x.objects.length + 1, x.lists.length + 3)] } := by
      rw [e1]
      unfold Compiling.step
      simp only [hx, List.length_append, List.length_cons, List.length_nil]
    simp only [y, Compiling.run, List.foldl_cons, List.foldl_nil]
    rw [e2]
    simp only [Compiling.step, r0, r1, l0, l1, l2, List.nil_append, if_neg hu]
  have ho : y.objects.getD x.objects.length 0 = x.lists.length + 1 := by rw [ey]; exact set_getD_self _ _ _ _ (by simp)
  refine ⟨by rw [ey], ?_, by rw [ey], by rw [ey]; simp, ?_, ?_, ho⟩
  · unfold Compiling.intervals
    rw [ho, ey]
    simp only []
    rw [set_getD_ne _ _ _ _ _ (by omega)]
    exact set_getD_self _ _ _ _ (by simp)
  · rw [ey]
    simp only []
    rw [set_getD_ne _ _ _ _ _ (by omega)]; simp [k, List.getD]
  · rw [ey]
    exact set_getD_self _ _ _ _ (by simp)

/-- **C99, refuted** for two runs of one request that begin while no report is in progress, if the second one alone has all the samples needed:
    what is queued is the report of the first one, which is not complete, and the complete one of the second is lost. -/
theorem c99_wrong_report_violated {n : Nat} {x : Compiling} (hx : x.progress = none) (us vs : List OutInterval) (hu : us.length ≠ n) (hv : vs.length = n) :
    let k := x.runs.length
    let y := x.run n [.begins, .begins, .adds k us, .ends k, .adds (k + 1) vs, .ends (k + 1)]
    y.queued = x.queued ++ [x.objects.length] ∧ y.intervals x.objects.length = us ∧ y.progress = none := by
  intro k y
  obtain ⟨h1, h2, h3, h4, h5, h6, h7⟩ := two_first_runs (n := n) hx us vs hu
  have ey : y = (x.run n [.begins, .begins, .adds k us, .ends k, .adds (k + 1) vs]).step n (.ends (k + 1)) := rfl
  generalize x.run n [.begins, .begins, .adds k us, .ends k, .adds (k + 1) vs] = z at *
  have e : z.step n (.ends (k + 1)) = { z with objects := z.objects.set (x.objects.length + 1) (x.lists.length + 3), runs := z.runs.set (k + 1) none, queued := z.queued ++ [x.objects.length], progress := none } := by
    unfold Compiling.step
    simp only [k, h5, h6, if_pos hv, h1]
  rw [ey, e]
  refine ⟨by simp only [h3], ?_, rfl⟩
  rw [← h2]
  unfold Compiling.intervals
  simp only [set_getD_ne _ _ _ _ _ (by omega : x.objects.length + 1 ≠ x.objects.length)]

/-- **C99, refuted** for two runs of one request that begin while no report is in progress, also with the objects they make: the second one replaces
    the report of the first, whose samples are lost. -/
theorem c99_replaced_violated {n : Nat} {x : Compiling} (hx : x.progress = none) (us vs : List OutInterval) (hu : us.length ≠ n) (hv : vs.length ≠ n) :
    let k := x.runs.length
    let y := x.run n [.begins, .begins, .adds k us, .ends k, .adds (k + 1) vs, .ends (k + 1)]
    y.queued = x.queued ∧ y.progress.map y.intervals = some vs := by
  intro k y
  obtain ⟨h1, h2, h3, h4, h5, h6, h7⟩ := two_first_runs (n := n) hx us vs hu
  have ey : y = (x.run n [.begins, .begins, .adds k us, .ends k, .adds (k + 1) vs]).step n (.ends (k + 1)) := rfl
  generalize x.run n [.begins, .begins, .adds k us, .ends k, .adds (k + 1) vs] = z at *
  have e : z.step n (.ends (k + 1)) = { z with objects := z.objects.set (x.objects.length + 1) (x.lists.length + 3), runs := z.runs.set (k + 1) none, progress := some (x.objects.length + 1) } := by
    unfold Compiling.step
    simp only [k, h5, h6, if_neg hv]
  rw [ey, e]
  refine ⟨h3, ?_⟩
  unfold Compiling.intervals
  simp only [Option.map_some, set_getD_self _ _ _ _ (by omega : x.objects.length + 1 < z.objects.length), h6]

/-- `c99_wrong_report_violated`: a report of two samples goes out with one. -/
example : let y := Compiling.run 2 {} [.begins, .begins, .adds 0 [sampleAt 1], .ends 0, .adds 1 [sampleAt 2, sampleAt 3], .ends 1]
    y.queued.map y.intervals = [[sampleAt 1]] := by decide +kernel

/-- `c99_replaced_violated`: of two samples, the first is lost. -/
example : let y := Compiling.run 2 {} [.begins, .begins, .adds 0 [sampleAt 1], .ends 0, .adds 1 [sampleAt 2], .ends 1]
    y.progress.map y.intervals = some [sampleAt 2] ∧ y.queued = [] :=
  ⟨by decide +kernel, by decide +kernel⟩

/-- `c99_serial_partial`: five runs for a report of two data points and four samples: one report is queued, and then the next one. -/
example : let y := Compiling.run 4 {} (wholeRuns 0 [[[sampleAt 1], [sampleAt 2]], [[sampleAt 3], [sampleAt 4]], [[sampleAt 5], [sampleAt 6]],
      [[sampleAt 7], [sampleAt 8]], [[sampleAt 9], []]])
    y.queued.map y.intervals = [[sampleAt 1, sampleAt 2, sampleAt 3, sampleAt 4], [sampleAt 5, sampleAt 6, sampleAt 7, sampleAt 8]] ∧
      y.progress.map y.intervals = some [sampleAt 9] :=
  ⟨by decide +kernel, by decide +kernel⟩

/-- `c99_update_one_run`: the first sample of a report of three. -/
example : let s' := (updateReport (answering 1) 10 samplingVen (.str "three")).1
    ((getIncomplete s'.incomplete (.str "three")).map OutReport.intervals, s'.pending.map OutReport.intervals) =
      oneRun 3 (none, []) [⟨10, .str "r", .int 1, none⟩] := by decide +kernel

end Openleadr
