import Verif.Props.VenRequests
/-!
C59: incremental reports are sent complete and on time.
-/
namespace Openleadr

/-- One update of a report: for which request, with which callbacks, when. -/
structure Tick where
  request : Value
  user : Sampler
  now : Int

/-- Updates of any reports, one after the other; the outcomes of those of `q`. -/
def runTicks (q : Value) : VenReports → List Tick → VenReports × List (Res Unit)
  | s, [] => (s, [])
  | s, t :: ts =>
    let r := updateReport t.user t.now s t.request
    let rest := runTicks q r.1 ts
    (rest.1, if t.request = q then r.2.2 :: rest.2 else rest.2)

/-- Every report in progress is filed under its own request id. -/
def Keyed (s : VenReports) : Prop := ∀ k o, getIncomplete s.incomplete k = some o → o.requestId = k

theorem keyed_set (d : List (Value × OutReport)) (q : Value) (o : OutReport) (ho : o.requestId = q)
    (h : ∀ k o, getIncomplete d k = some o → o.requestId = k) : ∀ k o', getIncomplete (setIncomplete d q o) k = some o' → o'.requestId = k := by
  intro k o' hk
  by_cases hkq : k = q
  · subst hkq; rw [getIncomplete_set_self] at hk; injection hk with hk; rw [← hk]; exact ho
  · rw [getIncomplete_set_other _ _ _ _ hkq] at hk; exact h k o' hk

/-- An update keeps the reports in progress apart, and queues only reports of its request. -/
theorem updateReport_keyed (user : Sampler) (now : Int) (s : VenReports) (q : Value) (h : Keyed s) :
    Keyed (updateReport user now s q).1 ∧ ∃ new, (updateReport user now s q).1.pending = s.pending ++ new ∧ ∀ o ∈ new, o.requestId = q := by
  unfold updateReport
  cases s.requests.find? (fun r => decide (r.requestId = q)) with
  | none => exact ⟨h, [], by simp, by simp⟩
  | some rq =>
    simp only []
    cases s.reports.find? (fun r => decide (Value.str r.specifierId = rq.specifierId)) with
    | none => exact ⟨h, [], by simp, by simp⟩
    | some report =>
      simp only []
      generalize hout : (getIncomplete s.incomplete q).getD ⟨q, report.specifierId, outName report.name, none, []⟩ = out
      have hq : out.requestId = q := by
        cases hg : getIncomplete s.incomplete q with
        | none => rw [hg] at hout; rw [← hout]; rfl
        | some x => rw [hg] at hout; simp only [Option.getD_some] at hout; rw [← hout]; exact h q x hg
      cases hc : collect s user now rq report out.intervals with
      | mk calls rest =>
        obtain ⟨intervals, res⟩ := rest
        have hfin : (finished out intervals).requestId = q := hq
        cases res with
        | error e =>
          simp only [keepPartial]
          cases hg : getIncomplete s.incomplete q with
          | none => exact ⟨h, [], by simp, by simp⟩
          | some o =>
            simp only []
            split
            · exact ⟨h, [], by simp, by simp⟩
            · exact ⟨keyed_set _ _ _ (h q o hg) h, [], by simp, by simp⟩
        | ok u =>
          simp only []
          cases expectedLen report.full rq.reportBack rq.granularity ((s.lists[rq.rIds]?).getD []).length with
          | error e =>
            simp only []
            cases getIncomplete s.incomplete q with
            | none => exact ⟨h, [], by simp, by simp⟩
            | some o => exact ⟨keyed_set _ _ _ hfin h, [], by simp, by simp⟩
          | ok o =>
            cases o with
            | none =>
              refine ⟨?_, [finished out intervals], rfl, ?_⟩
              · simp only []
                cases getIncomplete s.incomplete q with
                | none => exact h
                | some o => exact keyed_set _ _ _ hfin h
              · intro o ho; simp only [List.mem_singleton] at ho; subst ho; exact hfin
            | some n =>
              simp only []
              split
              · cases hg : getIncomplete s.incomplete q with
                | none => exact ⟨h, [], by simp, by simp⟩
                | some o =>
                  refine ⟨?_, [finished out intervals], rfl, ?_⟩
                  · intro k o' hk
                    simp only [] at hk
                    by_cases hkq : k = q
                    · subst hkq; rw [getIncomplete_erase_self] at hk; cases hk
                    · rw [getIncomplete_erase_other _ _ _ hkq] at hk; exact h k o' hk
                  · intro o ho; simp only [List.mem_singleton] at ho; subst ho; exact hfin
              · exact ⟨keyed_set _ _ _ hfin h, [], by simp, by simp⟩

/-- The value of an answer with one value: a number, or a pair of a time and a value. -/
def numberOf : SampleAnswer → Value
  | .number v => v
  | .series [(_, v)] _ => v
  | .series _ _ => .none

/-- The time of an answer with one value: that of the pair, or else the time at which it is asked for. -/
def timeOf (now : Int) : SampleAnswer → Int
  | .number _ => now
  | .series [(d, _)] _ => d
  | .series _ _ => now

/-- An answer with one value. A number that is answered later than the number of another data point in the same update is a pair with its own time: that is what
    `update_report` makes of it (client.py:895-896). -/
def OneSample (a : SampleAnswer) : Prop := (∃ v, a = .number v) ∨ ∃ d v, a = .series [(d, v)] none

theorem OneSample.pairs {a : SampleAnswer} (h : OneSample a) (now : Int) : a.pairs now = ([(timeOf now a, numberOf a)], none) := by
  rcases h with ⟨v, rfl⟩ | ⟨d, v, rfl⟩ <;> rfl

/-- The samples taken at a tick: one for each data point, in order, with the time of the tick or that of the answer. -/
def samplesAt (callback : Value → Value) (duration : Option Int) (rids : List Value) (t : Tick) : List OutInterval :=
  rids.map (fun r => ⟨timeOf t.now (t.user ⟨callback r, r, .now⟩), r, numberOf (t.user ⟨callback r, r, .now⟩), duration⟩)

/-- A request in force for data points of an incremental report. -/
structure Incremental (s : VenReports) (q : Value) (rids : List Value) (callback : Value → Value) (b g : Int) (rq : VenRequest) (report : VenReport) :
    Prop where
  request : s.requests.find? (fun r => decide (r.requestId = q)) = some rq
  offer : s.reports.find? (fun r => decide (Value.str r.specifierId = rq.specifierId)) = some report
  mode : report.full = false
  points : s.lists[rq.rIds]? = some rids
  back : rq.reportBack = some b
  granularity : rq.granularity = some g
  callbacks : ∀ r ∈ rids, getCallback s.callbacks (rq.specifierId, r) = some (callback r)

theorem Incremental.kept {s s' : VenReports} {q q' : Value} {rids : List Value} {callback : Value → Value} {b g : Int} {rq : VenRequest}
    {report : VenReport} (h : Incremental s q rids callback b g rq report) (hs : SameBut q' s s') :
    Incremental s' q rids callback b g rq report :=
  ⟨by rw [hs.requests]; exact h.request, by rw [hs.reports]; exact h.offer, h.mode, by rw [hs.lists]; exact h.points, h.back, h.granularity,
   by rw [hs.callbacks]; exact h.callbacks⟩

/-- The duration put on the samples. -/
def sampleDuration (report : VenReport) (b g : Int) : Option Int := if outName report.name = "TELEMETRY_USAGE" ∧ b = 0 then some g else none

theorem collectIncremental_numbers (callbacks : List ((Value × Value) × Value)) (callback : Value → Value) (t : Tick) (spec : Value) (report : VenReport)
    (b g : Int) (rids : List Value) (hcb : ∀ r ∈ rids, getCallback callbacks (spec, r) = some (callback r))
    (hnum : ∀ r ∈ rids, OneSample (t.user ⟨callback r, r, .now⟩)) (acc : List OutInterval) :
    ∃ calls, collectIncremental callbacks t.user spec t.now (decide (outName report.name = "TELEMETRY_USAGE")) (some b) (some g) rids acc =
      (calls, acc ++ samplesAt callback (sampleDuration report b g) rids t, .ok ()) := by
  induction rids generalizing acc with
  | nil => exact ⟨[], by simp [collectIncremental, samplesAt]⟩
  | cons r rs ih =>
    have hv := (hnum r (by simp)).pairs t.now
    generalize hat : timeOf t.now (t.user ⟨callback r, r, .now⟩) = d at hv
    generalize hval : numberOf (t.user ⟨callback r, r, .now⟩) = v at hv
    obtain ⟨calls, hc⟩ := ih (fun x hx => hcb x (by simp [hx])) (fun x hx => hnum x (by simp [hx]))
      (acc ++ [⟨d, r, v, sampleDuration report b g⟩])
    refine ⟨⟨callback r, r, .now⟩ :: calls, ?_⟩
    rw [collectIncremental, hcb r (by simp)]
    simp only [hv]
    have ha : appendSamples (decide (outName report.name = "TELEMETRY_USAGE")) (some b) (some g) r [(d, v)] acc =
        (acc ++ [⟨d, r, v, sampleDuration report b g⟩], .ok ()) := by
      by_cases hn : outName report.name = "TELEMETRY_USAGE" <;> by_cases hb : b = 0 <;> simp [appendSamples, sampleDuration, hn, hb]
    rw [ha]
    simp only [hc]
    simp [samplesAt, hat, hval]

/-- The smallest number of a list is one of them and below all. -/
theorem smallest_spec (l : List Int) (h : l ≠ []) : ∃ d, smallest l = some d ∧ d ∈ l ∧ ∀ x ∈ l, d ≤ x := by
  cases l with
  | nil => exact absurd rfl h
  | cons a l =>
    refine ⟨l.foldl min a, rfl, ?_⟩
    clear h
    induction l generalizing a with
    | nil => simp
    | cons c l ih =>
      simp only [List.foldl_cons]
      obtain ⟨h1, h2⟩ := ih (min a c)
      constructor
      · rcases List.mem_cons.mp h1 with h | h
        · rw [h]
          rcases Int.le_total a c with hac | hac
          · simp [Int.min_eq_left hac]
          · simp [Int.min_eq_right hac]
        · simp [h]
      · intro x hx
        have hm := h2 (min a c) (by simp)
        rcases List.mem_cons.mp hx with rfl | hx
        · omega
        · rcases List.mem_cons.mp hx with rfl | hx
          · omega
          · exact h2 x (by simp [hx])

/-- A complete report of a request with these samples. -/
structure CompleteReport (q : Value) (report : VenReport) (intervals : List OutInterval) (o : OutReport) : Prop where
  requestId : o.requestId = q
  specifierId : o.specifierId = report.specifierId
  name : o.name = outName report.name
  start : ∃ d, o.dtstart = some d ∧ d ∈ intervals.map OutInterval.dtstart ∧ ∀ i ∈ intervals, d ≤ i.dtstart
  intervals : o.intervals = intervals

/-- What is collected for a request so far: the samples of some ticks. -/
def Progress (s : VenReports) (q : Value) (report : VenReport) (ticks : List (List OutInterval)) : Prop :=
  if ticks = [] then getIncomplete s.incomplete q = none
  else ∃ out, getIncomplete s.incomplete q = some out ∧ CompleteReport q report ticks.flatten out

theorem finished_complete (q : Value) (report : VenReport) (out : OutReport) (intervals : List OutInterval) (hne : intervals ≠ [])
    (h1 : out.requestId = q) (h2 : out.specifierId = report.specifierId) (h3 : out.name = outName report.name) :
    CompleteReport q report intervals (finished out intervals) := by
  obtain ⟨d, hd, hm, hl⟩ := smallest_spec (intervals.map OutInterval.dtstart) (by simpa using hne)
  refine ⟨h1, h2, h3, ⟨d, ?_, hm, fun i hi => hl _ (List.mem_map_of_mem hi)⟩, rfl⟩
  simp [finished, hd]

theorem length_flatten_const (l : List (List OutInterval)) (m : Nat) (h : ∀ x ∈ l, x.length = m) : l.flatten.length = l.length * m := by
  induction l with
  | nil => simp
  | cons x l ih =>
    simp only [List.flatten_cons, List.length_append, List.length_cons, h x (by simp), ih (fun y hy => h y (by simp [hy]))]
    rw [Nat.add_mul]; omega

theorem tdiv_of_bounds (b g : Int) (n : Nat) (hg : 0 < g) (h1 : n * g ≤ b) (h2 : b < (n + 1) * g) : Int.tdiv b g = n := by
  have hb : 0 ≤ b := by
    have : (0 : Int) ≤ n * g := Int.mul_nonneg (by omega) (by omega)
    omega
  rw [Int.tdiv_eq_ediv_of_nonneg hb]
  have l1 := (Int.le_ediv_iff_mul_le hg).mpr h1
  have l2 := (Int.ediv_lt_iff_lt_mul hg).mpr h2
  omega

/-- One update of a report that is held back until it has the samples of `n` ticks. -/
theorem updateReport_tick (s : VenReports) (q : Value) (rids : List Value) (hrids : rids ≠ []) (callback : Value → Value) (b g : Int) (n : Nat)
    (rq : VenRequest) (report : VenReport) (hi : Incremental s q rids callback b g rq report) (hg : 0 < g) (hn : 2 ≤ n) (h1 : n * g ≤ b)
    (h2 : b < (n + 1) * g) (t : Tick) (hnum : ∀ r ∈ rids, OneSample (t.user ⟨callback r, r, .now⟩))
    (soFar : List (List OutInterval)) (hm : ∀ x ∈ soFar, x.length = rids.length) (hp : Progress s q report soFar) :
    (updateReport t.user t.now s q).2.2 = .ok () ∧
    (if soFar.length + 1 = n
     then Progress (updateReport t.user t.now s q).1 q report [] ∧
       ∃ o, (updateReport t.user t.now s q).1.pending = s.pending ++ [o] ∧ CompleteReport q report (soFar ++ [samplesAt callback none rids t]).flatten o
     else Progress (updateReport t.user t.now s q).1 q report (soFar ++ [samplesAt callback none rids t]) ∧
       (updateReport t.user t.now s q).1.pending = s.pending) := by
  have hgb : g < b := by
    have : 2 * g ≤ n * g := Int.mul_le_mul_of_nonneg_right (by omega) (by omega)
    omega
  have hb0 : b ≠ 0 := by omega
  have hdur : sampleDuration report b g = none := by simp [sampleDuration, hb0]
  unfold updateReport
  rw [hi.request]; simp only []; rw [hi.offer]; simp only [hi.points, Option.getD_some]
  generalize hout : (getIncomplete s.incomplete q).getD ⟨q, report.specifierId, outName report.name, none, []⟩ = out
  have ho : out.requestId = q ∧ out.specifierId = report.specifierId ∧ out.name = outName report.name ∧ out.intervals = soFar.flatten ∧
      (getIncomplete s.incomplete q = none ↔ soFar = []) := by
    unfold Progress at hp
    by_cases hnil : soFar = []
    · rw [if_pos hnil] at hp
      rw [hp] at hout
      rw [← hout, hp, hnil]
      simp
    · rw [if_neg hnil] at hp
      obtain ⟨o, h1, h2⟩ := hp
      rw [h1] at hout
      simp only [Option.getD_some] at hout
      subst hout
      exact ⟨h2.requestId, h2.specifierId, h2.name, h2.intervals, by simp [h1, hnil]⟩
  obtain ⟨o1, o2, o3, o4, o5⟩ := ho
  have hcol : ∃ calls, collect s t.user t.now rq report out.intervals =
      (calls, (soFar ++ [samplesAt callback none rids t]).flatten, .ok ()) := by
    obtain ⟨calls, hc⟩ := collectIncremental_numbers s.callbacks callback t rq.specifierId report b g rids hi.callbacks hnum out.intervals
    refine ⟨calls, ?_⟩
    simp only [collect, hi.mode, Bool.false_eq_true, if_false, hi.points, Option.getD_some, hi.back, hi.granularity]
    rw [hc, hdur, o4]
    simp
  obtain ⟨calls, hc⟩ := hcol
  rw [hc]
  have hexp : expectedLen report.full rq.reportBack rq.granularity rids.length = .ok (some (rids.length * n)) := by
    simp only [expectedLen, hi.mode, hi.back, hi.granularity, Bool.false_eq_true, if_false]
    rw [if_pos ⟨hg, hgb⟩, tdiv_of_bounds b g n hg h1 h2]
  simp only [hexp]
  have hs1 : (samplesAt callback none rids t).length = rids.length := by simp [samplesAt]
  have hlen' : (soFar ++ [samplesAt callback none rids t]).flatten.length = (soFar.length + 1) * rids.length := by
    rw [length_flatten_const _ rids.length]
    · simp
    · intro x hx
      rcases List.mem_append.mp hx with hx | hx
      · exact hm x hx
      · simp only [List.mem_singleton] at hx; rw [hx]; exact hs1
  have hpos : 0 < rids.length := List.length_pos_iff.mpr hrids
  have hne : (soFar ++ [samplesAt callback none rids t]).flatten ≠ [] := by
    intro hc
    rw [hc] at hlen'
    simp only [List.length_nil] at hlen'
    have : 0 < (soFar.length + 1) * rids.length := Nat.mul_pos (by omega) hpos
    omega
  generalize hiv : (soFar ++ [samplesAt callback none rids t]).flatten = intervals at hlen' hne
  have hfin := finished_complete q report out intervals hne o1 o2 o3
  by_cases hlast : soFar.length + 1 = n
  · rw [if_pos hlast]
    have hnil : soFar ≠ [] := by intro hc; rw [hc] at hlast; simp at hlast; omega
    have heq : (intervals.length : Int) = rids.length * n := by
      rw [hlen', hlast]; push_cast; rw [Int.mul_comm]
    rw [if_pos heq]
    cases hgi : getIncomplete s.incomplete q with
    | none => exact absurd (o5.mp hgi) hnil
    | some o =>
      simp only []
      refine ⟨trivial, ?_, _, rfl, hfin⟩
      simp only [Progress, if_true]
      exact getIncomplete_erase_self _ _
  · rw [if_neg hlast]
    have hneq : ¬ (intervals.length : Int) = rids.length * n := by
      rw [hlen']
      intro hc
      have hc' : (soFar.length + 1) * rids.length = n * rids.length := by
        have : ((((soFar.length + 1) * rids.length : Nat)) : Int) = ((n * rids.length : Nat) : Int) := by
          rw [hc]; push_cast; rw [Int.mul_comm]
        exact_mod_cast this
      exact hlast (Nat.eq_of_mul_eq_mul_right hpos hc')
    rw [if_neg hneq]
    simp only []
    refine ⟨trivial, ?_, trivial⟩
    unfold Progress
    rw [if_neg (by simp)]
    exact ⟨_, getIncomplete_set_self _ _ _, hiv ▸ hfin⟩

/-- **C59** (partial: the callbacks answer with one value each, and the report-back interval is at least twice the granularity). A request for incremental data
    points of a client whose other reports are updated, too, at any times. The samples of all its ticks are sent in groups of `n`, where `n` is how
    often the granularity fits into the report-back interval: one complete report after each `n`-th tick. The rest is what is still in progress. -/
theorem c59_groups_partial (s : VenReports) (q : Value) (rids : List Value) (hrids : rids ≠ []) (callback : Value → Value) (b g : Int) (n : Nat)
    (rq : VenRequest) (report : VenReport) (hi : Incremental s q rids callback b g rq report) (hg : 0 < g) (hn : 2 ≤ n) (h1 : n * g ≤ b)
    (h2 : b < (n + 1) * g) (hk : Keyed s) (hstart : getIncomplete s.incomplete q = none) (ticks : List Tick)
    (hnum : ∀ t ∈ ticks, t.request = q → ∀ r ∈ rids, OneSample (t.user ⟨callback r, r, .now⟩)) :
    let s' := (runTicks q s ticks).1
    let samples := (ticks.filter (fun t => decide (t.request = q))).map (samplesAt callback none rids)
    (∀ r ∈ (runTicks q s ticks).2, r = .ok ()) ∧
    ∃ groups rest sent, samples = groups.flatten ++ rest ∧ (∀ x ∈ groups, x.length = n) ∧ rest.length < n ∧
      s'.pending.filter (fun o => decide (o.requestId = q)) = s.pending.filter (fun o => decide (o.requestId = q)) ++ sent ∧
      Pointwise (fun o x => CompleteReport q report x.flatten o) sent groups ∧ Progress s' q report rest := by
  have key : ∀ (ticks : List Tick) (s : VenReports) (soFar : List (List OutInterval)), Incremental s q rids callback b g rq report → Keyed s →
      soFar.length < n → (∀ x ∈ soFar, x.length = rids.length) → Progress s q report soFar →
      (∀ t ∈ ticks, t.request = q → ∀ r ∈ rids, OneSample (t.user ⟨callback r, r, .now⟩)) →
      (∀ r ∈ (runTicks q s ticks).2, r = .ok ()) ∧
      ∃ groups rest sent, soFar ++ (ticks.filter (fun t => decide (t.request = q))).map (samplesAt callback none rids) = groups.flatten ++ rest ∧
        (∀ x ∈ groups, x.length = n) ∧ rest.length < n ∧
        (runTicks q s ticks).1.pending.filter (fun o => decide (o.requestId = q)) = s.pending.filter (fun o => decide (o.requestId = q)) ++ sent ∧
        Pointwise (fun o x => CompleteReport q report x.flatten o) sent groups ∧ Progress (runTicks q s ticks).1 q report rest := by
    intro ticks
    induction ticks with
    | nil =>
      intro s soFar hi hk hlen hm hp _
      exact ⟨by simp [runTicks], [], soFar, [], by simp, by simp, hlen, by simp [runTicks], Pointwise.nil, hp⟩
    | cons t ts ih =>
      intro s soFar hi hk hlen hm hp hnum
      have hnum' : ∀ t ∈ ts, t.request = q → ∀ r ∈ rids, OneSample (t.user ⟨callback r, r, .now⟩) := fun x hx => hnum x (by simp [hx])
      by_cases htq : t.request = q
      · have hstep := updateReport_tick s q rids hrids callback b g n rq report hi hg hn h1 h2 t (hnum t (by simp) htq) soFar hm hp
        have hsame := updateReport_sameBut t.user t.now s q
        have hkey := (updateReport_keyed t.user t.now s q hk).1
        simp only [runTicks, htq, if_true, List.filter_cons, decide_true, List.map_cons]
        generalize updateReport t.user t.now s q = u at hstep hsame hkey
        obtain ⟨hok, hstep⟩ := hstep
        by_cases hlast : soFar.length + 1 = n
        · rw [if_pos hlast] at hstep
          obtain ⟨p1, o, p2, p3⟩ := hstep
          obtain ⟨i1, groups, rest, sent, i2, i3, i4, i5, i6, i7⟩ := ih u.1 [] (hi.kept hsame) hkey (by simp; omega) (by simp) p1 hnum'
          refine ⟨?_, (soFar ++ [samplesAt callback none rids t]) :: groups, rest, o :: sent, ?_, ?_, i4, ?_, Pointwise.cons p3 i6, i7⟩
          · intro r hr
            rcases List.mem_cons.mp hr with rfl | hr
            · exact hok
            · exact i1 r hr
          · simp only [List.nil_append] at i2
            simp [i2]
          · intro x hx
            rcases List.mem_cons.mp hx with rfl | hx
            · simpa using hlast
            · exact i3 x hx
          · rw [i5, p2]
            simp [p3.requestId]
        · rw [if_neg hlast] at hstep
          obtain ⟨p1, p2⟩ := hstep
          obtain ⟨i1, groups, rest, sent, i2, i3, i4, i5, i6, i7⟩ := ih u.1 (soFar ++ [samplesAt callback none rids t]) (hi.kept hsame) hkey
            (by simp; omega) (by
              intro x hx
              rcases List.mem_append.mp hx with hx | hx
              · exact hm x hx
              · simp only [List.mem_singleton] at hx; rw [hx]; simp [samplesAt]) p1 hnum'
          refine ⟨?_, groups, rest, sent, ?_, i3, i4, ?_, i6, i7⟩
          · intro r hr
            rcases List.mem_cons.mp hr with rfl | hr
            · exact hok
            · exact i1 r hr
          · rw [← i2]; simp
          · rw [i5, p2]
      · have hsame := updateReport_sameBut t.user t.now s t.request
        obtain ⟨hkey, new, hnew, hnew2⟩ := updateReport_keyed t.user t.now s t.request hk
        simp only [runTicks, htq, if_false, List.filter_cons, decide_false, Bool.false_eq_true]
        generalize updateReport t.user t.now s t.request = u at hsame hkey hnew
        have hp' : Progress u.1 q report soFar := by
          unfold Progress at hp ⊢
          rw [hsame.incomplete q (Ne.symm htq)]; exact hp
        obtain ⟨i1, groups, rest, sent, i2, i3, i4, i5, i6, i7⟩ := ih u.1 soFar (hi.kept hsame) hkey hlen hm hp' hnum'
        refine ⟨i1, groups, rest, sent, i2, i3, i4, ?_, i6, i7⟩
        rw [i5, hnew]
        have : new.filter (fun o => decide (o.requestId = q)) = [] := by
          rw [List.filter_eq_nil_iff]
          intro o ho
          simp [hnew2 o ho, htq]
        simp [this]
  have := key ticks s [] hi hk (by simp; omega) (by simp) (by simpa [Progress] using hstart) hnum
  simpa using this

/-- **C59** (the other case: the report-back interval is not longer than the granularity). Each update sends one report with exactly its samples. -/
theorem c59_sent_at_once (s : VenReports) (q : Value) (rids : List Value) (hrids : rids ≠ []) (callback : Value → Value) (b g : Int)
    (rq : VenRequest) (report : VenReport) (hi : Incremental s q rids callback b g rq report) (hbg : b ≤ g ∨ g ≤ 0)
    (hstart : getIncomplete s.incomplete q = none) (t : Tick) (hnum : ∀ r ∈ rids, OneSample (t.user ⟨callback r, r, .now⟩)) :
    ∃ o calls, updateReport t.user t.now s q = ({ s with pending := s.pending ++ [o] }, calls, .ok ()) ∧
      CompleteReport q report (samplesAt callback (sampleDuration report b g) rids t) o := by
  obtain ⟨calls, hc⟩ := collectIncremental_numbers s.callbacks callback t rq.specifierId report b g rids hi.callbacks hnum []
  have hne : samplesAt callback (sampleDuration report b g) rids t ≠ [] := by simpa [samplesAt] using hrids
  refine ⟨finished ⟨q, report.specifierId, outName report.name, none, []⟩ (samplesAt callback (sampleDuration report b g) rids t), calls, ?_,
    finished_complete q report _ _ hne rfl rfl rfl⟩
  unfold updateReport
  rw [hi.request]; simp only []; rw [hi.offer]; simp only [hi.points, Option.getD_some, hstart, Option.getD_none]
  have hcol : collect s t.user t.now rq report [] = (calls, samplesAt callback (sampleDuration report b g) rids t, .ok ()) := by
    simp only [collect, hi.mode, Bool.false_eq_true, if_false, hi.points, Option.getD_some, hi.back, hi.granularity]
    rw [hc]; simp
  rw [hcol]
  have hexp : expectedLen report.full rq.reportBack rq.granularity rids.length = .ok none := by
    simp only [expectedLen, hi.mode, hi.back, hi.granularity, Bool.false_eq_true, if_false]
    rw [if_neg (by omega)]
  simp only [hexp]

/-! ### The name of what is sent -/

theorem isInfix_cons_false (a : List Char) (c : Char) (b : List Char) (h : isInfix a (c :: b) = false) :
    a.isPrefixOf (c :: b) = false ∧ isInfix a b = false := by
  simpa [isInfix] using h

theorem removeText_none (pat : List Char) (l : List Char) (h : isInfix pat l = false) : removeText pat 0 l = l := by
  induction l with
  | nil => rfl
  | cons c l ih =>
    obtain ⟨h1, h2⟩ := isInfix_cons_false pat c l h
    simp [removeText, h1, ih h2]

theorem removeText_skip (pat skip l : List Char) : removeText pat skip.length (skip ++ l) = removeText pat 0 l := by
  induction skip with
  | nil => rfl
  | cons c r ih => simpa [removeText] using ih

theorem removeText_front (pat l : List Char) (hp : pat ≠ []) : removeText pat 0 (pat ++ l) = removeText pat 0 l := by
  cases pat with
  | nil => exact absurd rfl hp
  | cons c r =>
    have : (c :: r).isPrefixOf (c :: (r ++ l)) = true := by
      rw [List.isPrefixOf_iff_prefix]; exact ⟨l, rfl⟩
    show removeText (c :: r) 0 (c :: (r ++ l)) = _
    simp only [removeText, this, if_true]
    exact removeText_skip (c :: r) r l

/-- The parts of a text are parts of the text. -/
theorem isInfix_of_append (a b l : List Char) (h : isInfix a l = false) : isInfix (a ++ b) l = false := by
  induction l with
  | nil =>
    cases a with
    | nil => simp [isInfix] at h
    | cons => simp [isInfix] at h ⊢
  | cons c l ih =>
    obtain ⟨h1, h2⟩ := isInfix_cons_false a c l h
    simp only [isInfix, Bool.or_eq_false_iff]
    refine ⟨?_, ih h2⟩
    cases hx : (a ++ b).isPrefixOf (c :: l) with
    | false => rfl
    | true =>
      rw [List.isPrefixOf_iff_prefix] at hx
      have : a.isPrefixOf (c :: l) = true := by
        rw [List.isPrefixOf_iff_prefix]
        exact (List.prefix_append a b).trans hx
      rw [this] at h1; cases h1

/-- **C59.** A report that is offered as `METADATA_…` is sent under the name without this part; all others are sent under the name they are offered with. -/
theorem c59_sent_name (q : Value) (report : VenReport) (intervals : List OutInterval) (o : OutReport) (h : CompleteReport q report intervals o) :
    (∀ rest : String, isInfix "METADATA".toList rest.toList = false → report.name = "METADATA_" ++ rest → o.name = rest) ∧
    (isInfix "METADATA".toList report.name.toList = false → o.name = report.name) := by
  rw [h.name]
  refine ⟨?_, ?_⟩
  · intro rest hr hn
    rw [hn]
    unfold outName
    rw [String.toList_append]
    have hin : isInfix "METADATA".toList ("METADATA_".toList ++ rest.toList) = true := by
      simp [isInfix]
    rw [if_pos hin, removeText_front _ _ (by decide), removeText_none]
    · simp
    · exact isInfix_of_append "METADATA".toList "_".toList rest.toList hr
  · intro hno
    unfold outName
    rw [hno]; rfl

/-! ### Concrete cases -/

/-- A client with a request "q" for the data points "a" and "b", with this report-back interval and granularity in seconds. -/
def asked (b g : Int) (rs : List String) : VenReports := (createReport ones 0 twoReports [ask "q" "s" b g rs]).1
/-- `k` ticks, with callbacks that answer with the time. -/
def clock (n : Nat) : List Tick := (List.range n).map (fun (i : Nat) => ⟨.str "q", fun _ => .number (.int i), i⟩)
/-- The values of the reports queued after some ticks. -/
def sentValues (s : VenReports) (ticks : List Tick) : List (List Value) :=
  (runTicks (.str "q") s ticks).1.pending.map (fun o => o.intervals.map OutInterval.value)

/-- The report "s". -/
def offerS : VenReport := (twoReports.reports.head?).getD ⟨"", "", false, []⟩

/-- non-vacuity: the first theorem applies to a request as it is made by the VTN. -/
example : ∃ rq report, Incremental (asked 30 10 ["a", "b"]) (.str "q") [.str "a", .str "b"] (fun _ => .func 1) (seconds 30) (seconds 10) rq report ∧
    getIncomplete (asked 30 10 ["a", "b"]).incomplete (.str "q") = none := by
  refine ⟨⟨.str "q", .str "s", some (seconds 30), 0, some (seconds 10), some 0⟩, offerS, ⟨?_, ?_, ?_, ?_, ?_, ?_, ?_⟩, ?_⟩
  all_goals decide +kernel
example : sentValues (asked 30 10 ["a", "b"]) (clock 7) = [[.int 0, .int 0, .int 1, .int 1, .int 2, .int 2], [.int 3, .int 3, .int 4, .int 4, .int 5, .int 5]] := by
  decide +kernel
/-- Numbers that are answered at times of their own. -/
example : ((runTicks (.str "q") (asked 30 10 ["a", "b"]) ((List.range 3).map (fun (i : Nat) => ⟨.str "q", fun c =>
      if c.rId = .str "a" then .number (.int i) else .series [(10 * i + 5, .int i)] none, 10 * i⟩))).1.pending.map (fun o => o.intervals.map OutInterval.dtstart)) =
    [[0, 5, 10, 15, 20, 25]] := by decide +kernel
example : sentValues (asked 10 10 ["a", "b"]) (clock 2) = [[.int 0, .int 0], [.int 1, .int 1]] := by decide +kernel

/-- **C59, refuted** if the granularity fits only once into a longer report-back interval: every update fails, nothing is ever sent. -/
theorem c59_fits_once_violated :
    (runTicks (.str "q") (asked 15 10 ["a"]) (clock 3)).2 = [.error .keyError, .error .keyError, .error .keyError] ∧
    sentValues (asked 15 10 ["a"]) (clock 3) = [] := by decide +kernel

/-- **C59, refuted** for callbacks that answer with more than one sample at a time: the number of samples jumps over the expected one, and the report grows
    without ever being sent. -/
theorem c59_series_violated :
    let two : Sampler := fun _ => .series [(0, .int 1), (1, .int 2)] none
    let s := (runTicks (.str "q") (asked 30 10 ["a"]) ((List.range 4).map (fun (i : Nat) => ⟨.str "q", two, i⟩))).1
    s.pending = [] ∧ (getIncomplete s.incomplete (.str "q")).map (fun o => o.intervals.length) = some 8 := by decide +kernel

/-- **C59, refuted** if a callback once raises a `KeyError`, which is taken for a missing callback: the count is off for ever, nothing is sent any more. -/
theorem c59_key_error_violated :
    let fails : Sampler := fun c => if c.rId = .str "b" then .series [] (some .keyError) else .number (.int 1)
    let s := (runTicks (.str "q") (asked 30 10 ["a", "b"]) (⟨.str "q", fails, 0⟩ :: clock 6)).1
    s.pending = [] ∧ (getIncomplete s.incomplete (.str "q")).map (fun o => o.intervals.length) = some 13 := by decide +kernel

/-- **C59, refuted** for a request of which no data point was accepted: every update fails. -/
theorem c59_no_point_violated :
    (runTicks (.str "q") (asked 30 10 ["zzz"]) (clock 2)).2 = [.error .keyError, .error .keyError] := by decide +kernel

end Openleadr
