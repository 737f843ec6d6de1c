import Verif.Model.Sampling
import Verif.Lemmas.VenReports
/-!
C99: runs of `update_report` that overlap because their callbacks are coroutines (openleadr/client.py:848-930).
-/
namespace Openleadr

/-! ### Specification -/

/-- No run begins for a request while another one for it is waiting; `waiting` are the requests with such a run. -/
def NoOverlap : List Value → List SampleStep → Prop
  | _, [] => True
  | waiting, .begins q :: l => q ∉ waiting ∧ NoOverlap (q :: waiting) l
  | waiting, .ends q _ _ :: l => NoOverlap (waiting.filter (fun k => decide (k ≠ q))) l

/-- The same work with every run in one go, at the time when it ends. `waiting` are the requests for which a run has begun. -/
def oneByOne : List Value → VenReports → List SampleCall → List SampleStep → VenReports × List SampleCall
  | _, s, calls, [] => (s, calls)
  | waiting, s, calls, .begins q :: l => oneByOne (q :: waiting) s calls l
  | waiting, s, calls, .ends q user now :: l =>
    if q ∈ waiting then
      oneByOne (waiting.filter (fun k => decide (k ≠ q))) (updateReport user now s q).1 (calls ++ (updateReport user now s q).2.1) l
    else oneByOne (waiting.filter (fun k => decide (k ≠ q))) s calls l

/-- A run in two parts with nothing in between is `update_report`. -/
theorem update_in_two (user : Sampler) (now : Int) (s : VenReports) (q : Value) :
    updateReport user now s q = match beginUpdate s q with
      | .error e => (s, [], .error e)
      | .ok r => endUpdate user now s r := by
  unfold updateReport beginUpdate
  cases s.requests.find? (fun r => decide (r.requestId = q)) with
  | none => rfl
  | some rq =>
    simp only []
    cases s.reports.find? (fun r => decide (Value.str r.specifierId = rq.specifierId)) with
    | none => rfl
    | some report => rfl

theorem beginUpdate_q {s : VenReports} {q : Value} {r : SampleRun} (h : beginUpdate s q = .ok r) : r.q = q := by
  unfold beginUpdate at h
  cases hr : s.requests.find? (fun r => decide (r.requestId = q)) with
  | none => rw [hr] at h; simp at h
  | some rq =>
    rw [hr] at h
    simp only [] at h
    cases hp : s.reports.find? (fun r => decide (Value.str r.specifierId = rq.specifierId)) with
    | none => rw [hp] at h; simp at h
    | some report =>
      rw [hp] at h
      simp only [Except.ok.injEq] at h
      rw [← h]

theorem beginUpdate_same {s s' : VenReports} {q k : Value} (h : SameBut q s s') (hk : k ≠ q) : beginUpdate s' k = beginUpdate s k := by
  unfold beginUpdate
  rw [h.requests, h.reports, h.incomplete k hk]

/-- What holds all the time: every waiting run would read the same again; there is at most one for a request; `waiting` names them all, and no
    request that cannot begin has one. -/
structure SamplingInv (waiting : List Value) (x : Sampling) : Prop where
  current : ∀ r, r ∈ x.runs → beginUpdate x.reports r.q = .ok r
  single : (x.runs.map SampleRun.q).Nodup
  named : ∀ r, r ∈ x.runs → r.q ∈ waiting
  all : ∀ q, q ∈ waiting → (∃ r, r ∈ x.runs ∧ r.q = q) ∨ ∃ e, beginUpdate x.reports q = .error e

theorem find_run {runs : List SampleRun} {r : SampleRun} (hr : r ∈ runs) (hs : (runs.map SampleRun.q).Nodup) :
    runs.find? (fun y => decide (y.q = r.q)) = some r := by
  induction runs with
  | nil => simp at hr
  | cons y ys ih =>
    simp only [List.map_cons, List.nodup_cons] at hs
    rcases List.mem_cons.mp hr with rfl | hm
    · simp
    · have hne : y.q ≠ r.q := fun e => hs.1 (e ▸ List.mem_map_of_mem hm)
      simp only [List.find?_cons, hne, decide_false]
      exact ih hm hs.2

theorem mem_eraseRun {runs : List SampleRun} {q : Value} (hs : (runs.map SampleRun.q).Nodup) (r : SampleRun) :
    r ∈ runs.eraseP (fun y => decide (y.q = q)) ↔ r ∈ runs ∧ r.q ≠ q := by
  induction runs with
  | nil => simp
  | cons y ys ih =>
    simp only [List.map_cons, List.nodup_cons] at hs
    by_cases hy : y.q = q
    · rw [List.eraseP_cons_of_pos (by simp [hy])]
      constructor
      · intro hm
        exact ⟨List.mem_cons_of_mem _ hm, fun e => hs.1 (by rw [hy, ← e]; exact List.mem_map_of_mem hm)⟩
      · rintro ⟨hm, hne⟩
        rcases List.mem_cons.mp hm with rfl | hm
        · exact absurd hy hne
        · exact hm
    · rw [List.eraseP_cons_of_neg (by simp [hy]), List.mem_cons, ih hs.2, List.mem_cons]
      constructor
      · rintro (rfl | ⟨h1, h2⟩)
        · exact ⟨.inl rfl, hy⟩
        · exact ⟨.inr h1, h2⟩
      · rintro ⟨rfl | h1, h2⟩
        · exact .inl rfl
        · exact .inr ⟨h1, h2⟩

theorem samplingInv_begins {waiting : List Value} {x : Sampling} (inv : SamplingInv waiting x) {q : Value} (hq : q ∉ waiting) :
    SamplingInv (q :: waiting) (x.step (.begins q)) ∧ (x.step (.begins q)).reports = x.reports ∧ (x.step (.begins q)).calls = x.calls := by
  cases hb : beginUpdate x.reports q with
  | error e =>
    have hs : x.step (.begins q) = x := by simp only [Sampling.step, hb]
    rw [hs]
    refine ⟨⟨inv.current, inv.single, fun r hr => List.mem_cons_of_mem _ (inv.named r hr), fun k hk => ?_⟩, rfl, rfl⟩
    rcases List.mem_cons.mp hk with rfl | hk
    · exact .inr ⟨e, hb⟩
    · exact inv.all k hk
  | ok r =>
    have hrq := beginUpdate_q hb
    have hs : x.step (.begins q) = { x with runs := x.runs ++ [r] } := by simp only [Sampling.step, hb]
    rw [hs]
    refine ⟨⟨fun y hy => ?_, ?_, fun y hy => ?_, fun k hk => ?_⟩, rfl, rfl⟩
    · rcases List.mem_append.mp hy with hy | hy
      · exact inv.current y hy
      · simp only [List.mem_singleton] at hy; subst hy; rw [hrq]; exact hb
    · simp only [List.map_append, List.map_cons, List.map_nil]
      rw [List.nodup_append]
      refine ⟨inv.single, by simp, ?_⟩
      intro a ha b hb' hab
      simp only [List.mem_singleton] at hb'
      obtain ⟨y, hy, rfl⟩ := List.mem_map.mp ha
      exact hq (by rw [← hrq, ← hb', ← hab]; exact inv.named y hy)
    · rcases List.mem_append.mp hy with hy | hy
      · exact List.mem_cons_of_mem _ (inv.named y hy)
      · simp only [List.mem_singleton] at hy; subst hy; rw [hrq]; exact List.mem_cons_self ..
    · rcases List.mem_cons.mp hk with rfl | hk
      · exact .inl ⟨r, List.mem_append_right _ (List.mem_singleton.mpr rfl), hrq⟩
      · rcases inv.all k hk with ⟨y, hy, hyk⟩ | he
        · exact .inl ⟨y, List.mem_append_left _ hy, hyk⟩
        · exact .inr he

theorem samplingInv_ends {waiting : List Value} {x : Sampling} (inv : SamplingInv waiting x) (q : Value) (user : Sampler) (now : Int) :
    SamplingInv (waiting.filter (fun k => decide (k ≠ q))) (x.step (.ends q user now)) ∧
      ((x.step (.ends q user now)).reports, (x.step (.ends q user now)).calls) =
        if q ∈ waiting then ((updateReport user now x.reports q).1, x.calls ++ (updateReport user now x.reports q).2.1) else (x.reports, x.calls) := by
  cases hf : x.runs.find? (fun r => decide (r.q = q)) with
  | none =>
    have hs : x.step (.ends q user now) = x := by simp only [Sampling.step, hf]
    rw [hs]
    have hno : ∀ r, r ∈ x.runs → r.q ≠ q := fun r hr => by simpa using List.find?_eq_none.mp hf r hr
    refine ⟨⟨inv.current, inv.single, fun r hr => List.mem_filter.mpr ⟨inv.named r hr, by simpa using hno r hr⟩,
      fun k hk => inv.all k (List.mem_filter.mp hk).1⟩, ?_⟩
    by_cases hw : q ∈ waiting
    · rw [if_pos hw]
      rcases inv.all q hw with ⟨r, hr, hrq⟩ | ⟨e, he⟩
      · exact absurd hrq (hno r hr)
      · rw [update_in_two, he]
        simp
    · rw [if_neg hw]
  | some r =>
    have hr : r ∈ x.runs := List.mem_of_find?_eq_some hf
    have hrq : r.q = q := by simpa using List.find?_some hf
    have hcur := inv.current r hr
    rw [hrq] at hcur
    have hend : endUpdate user now x.reports r = updateReport user now x.reports q := by rw [update_in_two, hcur]
    have same := updateReport_sameBut user now x.reports q
    have hs : x.step (.ends q user now) = ⟨(updateReport user now x.reports q).1, x.runs.eraseP (fun r => decide (r.q = q)), x.calls ++ (updateReport user now x.reports q).2.1⟩ := by
      simp only [Sampling.step, hf, hend]
    rw [hs]
    refine ⟨⟨fun y hy => ?_, ?_, fun y hy => ?_, fun k hk => ?_⟩, ?_⟩
    · obtain ⟨h1, h2⟩ := (mem_eraseRun inv.single y).mp hy
      rw [beginUpdate_same same h2]
      exact inv.current y h1
    · exact List.Nodup.sublist (List.Sublist.map _ List.eraseP_sublist) inv.single
    · obtain ⟨h1, h2⟩ := (mem_eraseRun inv.single y).mp hy
      exact List.mem_filter.mpr ⟨inv.named y h1, by simpa using h2⟩
    · obtain ⟨h1, h2⟩ := List.mem_filter.mp hk
      have h2 : k ≠ q := by simpa using h2
      rcases inv.all k h1 with ⟨y, hy, hyk⟩ | ⟨e, he⟩
      · exact .inl ⟨y, (mem_eraseRun inv.single y).mpr ⟨hy, by rw [hyk]; exact h2⟩, hyk⟩
      · exact .inr ⟨e, by rw [beginUpdate_same same h2]; exact he⟩
    · rw [if_pos (hrq ▸ inv.named r hr)]

theorem run_one_by_one (l : List SampleStep) (waiting : List Value) (x : Sampling) (inv : SamplingInv waiting x) (h : NoOverlap waiting l) :
    ((x.run l).reports, (x.run l).calls) = oneByOne waiting x.reports x.calls l := by
  induction l generalizing waiting x with
  | nil => rfl
  | cons st l ih =>
    match st with
    | .begins q =>
      obtain ⟨hq, hl⟩ := h
      obtain ⟨i, hr, hc⟩ := samplingInv_begins inv hq
      have := ih (q :: waiting) _ i hl
      rw [hr, hc] at this
      exact this
    | .ends q user now =>
      obtain ⟨i, hrc⟩ := samplingInv_ends inv q user now
      have := ih _ _ i h
      unfold oneByOne
      by_cases hw : q ∈ waiting
      · rw [if_pos hw] at hrc ⊢
        simp only [Prod.mk.injEq] at hrc
        rw [hrc.1, hrc.2] at this
        exact this
      · rw [if_neg hw] at hrc ⊢
        simp only [Prod.mk.injEq] at hrc
        rw [hrc.1, hrc.2] at this
        exact this

/-- **C99** (partial: runs of one and the same request must not overlap). Any number of runs of `update_report` for different requests may wait for
    their callbacks at the same time: the reports compiled and queued, and the calls made, are those of the runs done one by one in the order
    in which they end. -/
theorem c99_separate_partial (s : VenReports) (l : List SampleStep) (h : NoOverlap [] l) :
    ((Sampling.run ⟨s, [], []⟩ l).reports, (Sampling.run ⟨s, [], []⟩ l).calls) = oneByOne [] s [] l :=
  run_one_by_one l [] ⟨s, [], []⟩ ⟨fun r hr => by simp at hr, by simp, fun r hr => by simp at hr, fun q hq => by simp at hq⟩ h

/-- **C99, refuted** for a cancellation that comes while a sample is being taken: `cancel_report` updates the report one last time, while the run
    of the scheduled job still waits for its callback. If the report has just been begun, both runs compile a report of their own, and the one
    that ends last replaces the other: the samples of the first are lost. -/
theorem c99_overlap_violated (s : VenReports) (q : Value) (r : SampleRun) (user user' : Sampler) (now now' : Int) (hb : beginUpdate s q = .ok r)
    (hn : getIncomplete s.incomplete q = none) (n : Int)
    (he : expectedLen r.report.full r.request.reportBack r.request.granularity ((s.lists[r.request.rIds]?).getD []).length = .ok (some n))
    (calls calls' : List SampleCall) (ivs ivs' : List OutInterval)
    (h1 : collect s user now r.request r.report [] = (calls, ivs, .ok ())) (h2 : collect s user' now' r.request r.report [] = (calls', ivs', .ok ()))
    (hl : (ivs.length : Int) ≠ n) (hl' : (ivs'.length : Int) ≠ n) :
    getIncomplete (Sampling.run ⟨s, [], []⟩ [.begins q, .begins q, .ends q user now, .ends q user' now']).reports.incomplete q =
        some (finished r.out ivs') ∧ (finished r.out ivs').intervals = ivs' ∧
      (Sampling.run ⟨s, [], []⟩ [.begins q, .begins q, .ends q user now, .ends q user' now']).reports.pending = s.pending := by
  have hrq := beginUpdate_q hb
  have hout : r.out.intervals = [] := by
    unfold beginUpdate at hb
    cases hr : s.requests.find? (fun r => decide (r.requestId = q)) with
    | none => rw [hr] at hb; simp at hb
    | some rq =>
      rw [hr] at hb
      simp only [] at hb
      cases hp : s.reports.find? (fun r => decide (Value.str r.specifierId = rq.specifierId)) with
      | none => rw [hp] at hb; simp at hb
      | some report =>
        rw [hp, hn] at hb
        simp only [Except.ok.injEq] at hb
        rw [← hb]; rfl
  have e1 : endUpdate user now s r = ({ s with incomplete := setIncomplete s.incomplete q (finished r.out ivs) }, calls, .ok ()) := by
    unfold endUpdate
    rw [hout, h1]
    simp only [he, if_neg hl, hrq]
  have e2 : endUpdate user' now' { s with incomplete := setIncomplete s.incomplete q (finished r.out ivs) } r =
      ({ s with incomplete := setIncomplete (setIncomplete s.incomplete q (finished r.out ivs)) q (finished r.out ivs') }, calls', .ok ()) := by
    unfold endUpdate
    have : collect { s with incomplete := setIncomplete s.incomplete q (finished r.out ivs) } user' now' r.request r.report r.out.intervals =
        collect s user' now' r.request r.report r.out.intervals := rfl
    rw [this, hout, h2]
    simp only [he, if_neg hl', hrq]
  have hrun : Sampling.run ⟨s, [], []⟩ [.begins q, .begins q, .ends q user now, .ends q user' now'] =
      ⟨{ s with incomplete := setIncomplete (setIncomplete s.incomplete q (finished r.out ivs)) q (finished r.out ivs') }, [], calls ++ calls'⟩ := by
    simp only [Sampling.run, List.foldl_cons, List.foldl_nil, Sampling.step, hb, List.nil_append, List.cons_append, List.find?_cons, hrq, decide_true,
      e1, List.eraseP_cons, cond_true, e2]
  rw [hrun]
  exact ⟨getIncomplete_set_self _ _ _, rfl, rfl⟩

/-- A VEN with one data point and two requests for it, for reports of three samples and of one. -/
def samplingVen : VenReports :=
  { newVenReports with
    heap := [], reports := [⟨"METADATA_TELEMETRY_USAGE", "S", false, []⟩], callbacks := [((.str "S", .str "r"), .func 1)],
    requests := [⟨.str "three", .str "S", some 30000000, 0, some 10000000, none⟩, ⟨.str "one", .str "S", some 10000000, 0, some 10000000, none⟩],
    lists := [[.str "r"]] }

/-- Callbacks that all answer with the number `n`. -/
def answering (n : Int) : Sampler := fun _ => .number (.int n)

/-- `c99_separate_partial`: the second run begins and ends while the first waits. -/
example : NoOverlap [] [.begins (.str "three"), .begins (.str "one"), .ends (.str "one") (answering 1) 10, .ends (.str "three") (answering 2) 20] ∧
    (Sampling.run ⟨samplingVen, [], []⟩ [.begins (.str "three"), .begins (.str "one"), .ends (.str "one") (answering 1) 10,
        .ends (.str "three") (answering 2) 20]).reports.pending.map (fun o => (o.requestId, o.intervals.map OutInterval.value)) = [(.str "one", [.int 1])] ∧
    (getIncomplete (Sampling.run ⟨samplingVen, [], []⟩ [.begins (.str "three"), .begins (.str "one"), .ends (.str "one") (answering 1) 10,
        .ends (.str "three") (answering 2) 20]).reports.incomplete (.str "three")).map (fun o => o.intervals.map OutInterval.value) = some [.int 2] :=
  ⟨⟨by simp, by decide +kernel, trivial⟩, by decide +kernel, by decide +kernel⟩

/-- `c99_overlap_violated`: of two samples taken for the same request, the first is lost; one by one, both are kept. -/
example :
    (getIncomplete (Sampling.run ⟨samplingVen, [], []⟩ [.begins (.str "three"), .begins (.str "three"), .ends (.str "three") (answering 1) 10,
        .ends (.str "three") (answering 2) 20]).reports.incomplete (.str "three")).map (fun o => o.intervals.map OutInterval.value) = some [.int 2] ∧
    (getIncomplete (Sampling.run ⟨samplingVen, [], []⟩ [.begins (.str "three"), .ends (.str "three") (answering 1) 10, .begins (.str "three"),
        .ends (.str "three") (answering 2) 20]).reports.incomplete (.str "three")).map (fun o => o.intervals.map OutInterval.value) = some [.int 1, .int 2] :=
  ⟨by decide +kernel, by decide +kernel⟩

end Openleadr
