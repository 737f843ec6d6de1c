import Verif.Props.RegisterOffers
/-!
C90: reports from `add_report` of the VEN to the callbacks of the VTN.
-/
namespace Openleadr
open Spec

variable {lib : Lib} {now : Int}

/-- The calls of `add_report` make no requests, samples or jobs. -/
structure NothingAsked (s : VenReports) : Prop where
  requests : s.requests = []
  incomplete : s.incomplete = []
  pending : s.pending = []
  jobs : s.jobs = []

theorem add_nothingAsked (fresh : Nat → String) {s : VenReports} (h : NothingAsked s) (a : AddReport) : NothingAsked (addReport fresh s a).1 := by
  generalize hr : addReport fresh s a = x
  obtain ⟨s', res⟩ := x
  cases res with
  | error e => rw [c57_refused_unchanged fresh s s' a e hr]; exact h
  | ok out =>
    obtain ⟨heap, heap', ref, hi, hs, hcases⟩ := addReport_ok fresh s s' a out hr
    rcases hcases with ⟨offer, r, -, -, -, rfl⟩ | ⟨sid, r, -, -, -, -, rfl⟩ <;> exact ⟨h.requests, h.incomplete, h.pending, h.jobs⟩

theorem addAll_nothingAsked (fresh : Nat → String) (calls : List AddReport) {s : VenReports} (h : NothingAsked s) : NothingAsked (addAll fresh s calls) := by
  induction calls generalizing s with
  | nil => exact h
  | cons a l ih => exact ih (add_nothingAsked fresh h a)

/-- What is sampled is of a request that was made. -/
theorem runTicks_pending (q : Value) (ticks : List Tick) {s : VenReports} (hk : Keyed s) (hr : ∀ rq ∈ s.requests, rq.requestId = q)
    (hp : ∀ o ∈ s.pending, o.requestId = q) : ∀ o ∈ (runTicks q s ticks).1.pending, o.requestId = q := by
  induction ticks generalizing s with
  | nil => exact hp
  | cons t ts ih =>
    rw [runTicks]
    simp only []
    by_cases ht : t.request = q
    · obtain ⟨k1, new, k2, k3⟩ := updateReport_keyed t.user t.now s t.request hk
      refine ih k1 ?_ ?_
      · rw [(updateReport_sameBut t.user t.now s t.request).requests]; exact hr
      · rw [k2]
        intro o ho
        rcases List.mem_append.mp ho with ho | ho
        · exact hp o ho
        · rw [k3 o ho, ht]
    · have hn : s.requests.find? (fun r => decide (r.requestId = t.request)) = none := by
        rw [List.find?_eq_none]
        intro rq hrq
        rw [hr rq hrq]
        simpa using Ne.symm ht
      have : (updateReport t.user t.now s t.request).1 = s := by
        unfold updateReport; rw [hn]
      rw [this]
      exact ih hk hr hp

/-- A report that is asked for is sent under the name of a report of telemetry. -/
theorem sent_name (sound : lib.Sound) {r : VenReport} (h : offeredName r.name = "METADATA_TELEMETRY_USAGE" ∨ offeredName r.name = "METADATA_TELEMETRY_STATUS") :
    Ordinary lib (outName r.name) := by
  have hm : r.name ∈ reportNames := by
    apply Classical.byContradiction
    intro hc
    have : offeredName r.name = r.name := by simp [offeredName, hc]
    rw [this] at h
    apply hc
    rcases h with h | h <;> rw [h] <;> decide +kernel
  have hall : reportNames.all (fun n => wordB (outName n)) = true := by decide +kernel
  exact ordinary_wordB sound (List.all_eq_true.mp hall _ hm)

theorem picks_name {h : ReportAsk → Res Value} {compact : Bool} {ven : String} {heap : List Measurement} {g b : Int} {r : VenReport} {pick : VenPoint → Option Nat}
    (hp : Picks h compact ven heap g b r pick) (hs : picked pick r.points ≠ []) :
    offeredName r.name = "METADATA_TELEMETRY_USAGE" ∨ offeredName r.name = "METADATA_TELEMETRY_STATUS" := by
  rcases hp with ⟨-, h, -⟩ | ⟨-, h, -⟩ | ⟨-, h, -⟩ | ⟨-, -, h⟩
  · exact .inl h
  · exact .inr h
  · exact h
  · exfalso
    apply hs
    simp only [picked, List.filter_eq_nil_iff]
    intro p hp
    simp [h p hp]

/-- The callback under which a data point was added. -/
def VenReports.callbackOf (s : VenReports) (sid : String) (r : Value) : Value := (getCallback s.callbacks (.str sid, r)).getD .none

/-- **C90** (partial: the handler picks data points of one incremental report, all with the same intervals, and at least two samples make a report). From
    `add_report` of the VEN to the callbacks of the VTN, over all exchanges: the VEN offers what was added, the handler of the VTN picks data points, the VEN
    confirms the request; then the reports are updated at any times, and the worker sends what is in the queue. The function that the handler picked for a data
    point is called with exactly what the callback of this data point answered at the VEN, in order, each value once, as floats with the times of the samples:
    of as many samples as there are in complete reports. No other function is called for the data point. -/
theorem c90_delivered_partial {k k' : Link} {c : Config} {h : ReportAsk → Res Value} {compact : Bool} {freshVen fresh : Nat → String} {user : ReportCall → Res Unit}
    {sampler : Sampler} {secure : Bool} {peer : Option String} {ven rid : String} {a : Along} {x : Offering} (ready : x.Ready' k k' c secure peer ven rid a)
    {calls : List AddReport} (hx : x.ven = addAll freshVen newVenReports calls) (hf : Ordinary k.lib (fresh x.vtn.1.ids))
    {g b : Int} {pre post : List VenReport} {r : VenReport} {pick : VenPoint → Option Nat}
    (hrs : x.ven.reports = pre ++ r :: post) (hspec : x.ven.reports.Pairwise (fun p q => p.specifierId ≠ q.specifierId))
    (hothers : ∀ y ∈ pre ++ post, Picks h compact ven x.ven.heap g b y (fun _ => none)) (hr : Picks h compact ven x.ven.heap g b r pick)
    (hd : r.points.Pairwise (fun p q => p.rId ≠ q.rId)) (hsome : picked pick r.points ≠ [])
    (hrange : ∀ p ∈ picked pick r.points, p.rate.minPeriod ≤ g ∧ g ≤ p.rate.maxPeriod) (hg : Spans g) (hg0 : 0 < g) (hb : Spans b)
    (hcron : (cronConfig g false).valid = true) (hinv : ¬ Occurs "INVALID".toList r.specifierId.toList)
    (hinv' : ∀ p ∈ picked pick r.points, ∀ t, p.rId = .str t → ¬ Occurs "INVALID".toList t.toList)
    (hmode : r.full = false) {n : Nat} (hn : 2 ≤ n) (h1 : n * g ≤ b) (h2 : b < (n + 1) * g) (hu : ∀ call, user call = .ok ()) :
    let id := fresh x.vtn.1.ids
    let svc := reportService h compact fresh user
    ∃ y, offerReports k k' c svc sampler now secure peer (.str ven) rid a x = (y, .ok ()) ∧
      ∀ ticks : List Tick,
        (∀ t ∈ ticks, t.request = .str id → ∀ p ∈ picked pick r.points,
          let answer := t.user ⟨x.ven.callbackOf r.specifierId p.rId, p.rId, .now⟩
          Datable (timeOf t.now answer) ∧ OneSample answer ∧ AsFloat k.lib (numberOf answer) (floatOf k.lib (numberOf answer))) →
        ∀ (ts : List Turn) (z : Delivery), z.worker.running = true → z.worker.queue = (runTicks (.str id) y.ven ticks).1.pending → z.vtn = y.vtn →
          Pointwise (fun o t => t.link.lib = k.lib ∧ t.Ready c secure peer z.cache ven o) z.worker.queue ts →
          ∀ p ∈ r.points, ∀ f, pick p = some f →
            ∃ log, (z.run c svc secure peer (.str ven) ts).vtn = (y.vtn.1, y.vtn.2 ++ log) ∧
              (let mine := ticks.filter (fun t => decide (t.request = .str id))
               deliveredTo log (.str id) p.rId = (mine.take (mine.length / n * n)).map (fun t =>
                (.datetime (timeOf t.now (t.user ⟨x.ven.callbackOf r.specifierId p.rId, p.rId, .now⟩)), .float (floatOf k.lib (numberOf (t.user ⟨x.ven.callbackOf r.specifierId p.rId, p.rId, .now⟩)))))) ∧
              ∀ cb vs, ReportCall.deliver (.str id) p.rId cb vs ∈ log → cb = .func f := by
  intro id svc
  have hna : NothingAsked x.ven := by rw [hx]; exact addAll_nothingAsked _ _ ⟨rfl, rfl, rfl, rfl⟩
  have hoff : r.Offerable k.lib x.ven.heap a := ready.reports r (by simp [hrs])
  have hb0 : 0 < b := by
    have : 0 < (n : Int) * g := Int.mul_pos (by omega) hg0
    omega
  obtain ⟨vtn, h3, h4, h5, -⟩ := c89_as_chosen_partial (now := now) (user := user) (sampler := sampler) ready hf (by intro j hj; rw [hna.jobs] at hj; simp at hj) hrs hspec hothers hr hd
    hsome hrange hg (by omega) hb hb0 hcron hinv hinv'
  refine ⟨_, h3, ?_⟩
  intro ticks hticks ts z hz hqueue hvtn hts p hp f hf'
  have hsid : ∀ q ∈ picked pick r.points, getCallback x.ven.callbacks (.str r.specifierId, q.rId) = some (x.ven.callbackOf r.specifierId q.rId) := by
    intro q hq
    have hmem : (r.specifierId, q.rId) ∈ offeredKeys (addAll freshVen newVenReports calls) := by
      rw [← hx]
      simp only [offeredKeys, List.mem_flatMap, List.mem_map]
      exact ⟨r, by simp [hrs], q, (List.mem_filter.mp hq).1, rfl⟩
    have := (c57_addressable freshVen calls r.specifierId q.rId).mp hmem
    rw [← hx] at this
    obtain ⟨cb, hcb⟩ := Option.isSome_iff_exists.mp this
    rw [hcb, VenReports.callbackOf, hcb]
    rfl
  have hpk : p ∈ picked pick r.points := List.mem_filter.mpr ⟨hp, by simp [hf']⟩
  let v : VenReports :=
    { x.ven with
      lists := x.ven.lists ++ [(picked pick r.points).map VenPoint.rId]
      jobs := x.ven.jobs ++ [⟨x.ven.jobIds, .str id, .cron (cronConfig g false)⟩]
      jobIds := x.ven.jobIds + 1
      requests := x.ven.requests ++ [⟨.str id, .str r.specifierId, some b, x.ven.lists.length, some g, some x.ven.jobIds⟩] }
  have hvi : v.incomplete = [] := hna.incomplete
  have hvr : v.requests = [⟨.str id, .str r.specifierId, some b, x.ven.lists.length, some g, some x.ven.jobIds⟩] := by simp [v, hna.requests]
  have hvs : v.reports = pre ++ r :: post := hrs
  have hvp : v.pending = [] := hna.pending
  have hkeyed : Keyed v := by intro k o hko; simp [hvi, getIncomplete] at hko
  obtain ⟨log, e1, e2, e3⟩ := c88_from_end_to_end (lib := k.lib) v id ((picked pick r.points).map VenPoint.rId) (by simpa using hsome)
    (by
      refine List.Pairwise.map _ (fun a b h => h) ?_
      exact hd.filter _)
    (x.ven.callbackOf r.specifierId) b g n ⟨.str id, .str r.specifierId, some b, x.ven.lists.length, some g, some x.ven.jobIds⟩ r
    ⟨by rw [hvr]; simp, by rw [hvs]; exact find_report (hrs ▸ hspec), hmode, by simp [v], rfl, rfl, by
      intro y hy
      obtain ⟨q, hq, rfl⟩ := List.mem_map.mp hy
      exact hsid q hq⟩ hg0 hn h1 h2 hkeyed (by simp [hvi, getIncomplete]) hvp ticks
    (by
      intro t ht htq y hy
      obtain ⟨q, hq, rfl⟩ := List.mem_map.mp hy
      exact (hticks t ht htq q hq).2)
    (by
      intro t ht htq y hy
      obtain ⟨q, hq, rfl⟩ := List.mem_map.mp hy
      exact (hticks t ht htq q hq).1) hf hoff.specifierId (sent_name ready.connected.sound (picks_name hr hsome))
    (by
      intro y hy
      obtain ⟨q, hq, rfl⟩ := List.mem_map.mp hy
      exact (hoff.points q (List.mem_filter.mp hq).1).rId)
    (by
      intro o ho hne
      refine absurd (runTicks_pending (.str id) ticks hkeyed ?_ ?_ o ho) hne
      · intro rq hrq
        rw [hvr, List.mem_singleton] at hrq
        rw [hrq]
      · intro o ho; simp [hvp] at ho)
    (c := c) (user := user) (svc := svc) rfl (secure := secure) (peer := peer) (ven := ven) hu ts z hz hqueue hts p.rId (.func f) (List.mem_map.mpr ⟨p, hpk, rfl⟩)
    (by rw [hvtn]; exact h4 p hp f hf')
  refine ⟨log, by rw [e1, hvtn], e2, ?_⟩
  intro cb vs hcb
  obtain ⟨q', r', cb', vs', g1, -, g3⟩ := e3 _ hcb
  simp only [ReportCall.deliver.injEq] at g1
  obtain ⟨rfl, rfl, rfl, rfl⟩ := g1
  rw [hvtn] at g3
  have := (h4 p hp f hf').symm.trans g3
  exact (Option.some.inj this).symm

/-! ### A concrete case -/

/-- The report of the voltage, with two data points. -/
def voltageReport : VenReport :=
  ⟨"TELEMETRY_USAGE", "s1x", false, [⟨.str "ax", some "dev", "Direct Read", "reading", ⟨10000000, 3600000000⟩, some 0⟩,
    ⟨.str "bx", some "dev", "Direct Read", "reading", ⟨10000000, 3600000000⟩, some 0⟩]⟩

def warmthReport : VenReport :=
  ⟨"TELEMETRY_USAGE", "s2x", false, [⟨.str "cx", some "dev", "Direct Read", "reading", ⟨10000000, 3600000000⟩, some 24⟩]⟩

theorem sample_reports : sampleOffering.ven.reports = [] ++ voltageReport :: [warmthReport] := by decide +kernel

/-- Thirteen samples of all data points, one every ten seconds. -/
def thirteen : List Tick := (List.range 13).map (fun (i : Nat) => ⟨.str "x", fun _ => .number (.int i), seconds (10 * i)⟩)

theorem float_small (i : Nat) (hi : i < 13) : AsFloat plainLib (.int i) (floatOf plainLib (.int i)) := by
  have : ∀ i : Nat, i < 13 → (plainLib.readFloat (String.ofList (intText (i : Int)))).isSome = true := by decide +kernel
  obtain ⟨r, hr⟩ := Option.isSome_iff_exists.mp (this i hi)
  refine asFloat_plain _ _ ?_
  rw [floatOf, hr]; rfl

theorem sample_volt : Picks (chooses 10 (some "Voltage")) true "ven1" sampleOffering.ven.heap (seconds 10) (seconds 60) voltageReport (fun _ => some 7) := by
  refine .inl ⟨rfl, by decide +kernel, ?_⟩
  have : voltageReport.points.all (fun p => match p.measured sampleOffering.ven.heap with
    | some m => m.unit.isSome && m.scale.isSome && decide (p.resourceId = some "dev") && decide (m.description = "Voltage")
    | none => false) = true := by decide +kernel
  intro p hp
  have h := List.all_eq_true.mp this p hp
  cases hm : p.measured sampleOffering.ven.heap with
  | none => rw [hm] at h; cases h
  | some m =>
    rw [hm] at h
    simp only [Bool.and_eq_true, decide_eq_true_eq] at h
    obtain ⟨u, hu⟩ := Option.isSome_iff_exists.mp h.1.1.1
    obtain ⟨sc, hsc⟩ := Option.isSome_iff_exists.mp h.1.1.2
    refine ⟨"dev", m, u, sc, h.1.2, rfl, hu, hsc, ?_⟩
    simp [chooses, choiceOf, h.2]

theorem sample_warm : Picks (chooses 10 (some "Voltage")) true "ven1" sampleOffering.ven.heap (seconds 10) (seconds 60) warmthReport (fun _ => none) := by
  refine .inl ⟨rfl, by decide +kernel, ?_⟩
  have : warmthReport.points.all (fun p => match p.measured sampleOffering.ven.heap with
    | some m => m.unit.isSome && m.scale.isSome && decide (p.resourceId = some "dev") && decide (m.description = "warmth")
    | none => false) = true := by decide +kernel
  intro p hp
  have h := List.all_eq_true.mp this p hp
  cases hm : p.measured sampleOffering.ven.heap with
  | none => rw [hm] at h; cases h
  | some m =>
    rw [hm] at h
    simp only [Bool.and_eq_true, decide_eq_true_eq] at h
    obtain ⟨u, hu⟩ := Option.isSome_iff_exists.mp h.1.1.1
    obtain ⟨sc, hsc⟩ := Option.isSome_iff_exists.mp h.1.1.2
    refine ⟨"dev", m, u, sc, h.1.2, rfl, hu, hsc, ?_⟩
    simp [chooses, choiceOf, h.2]

theorem sample_pick : picked (fun _ => some 7) voltageReport.points = voltageReport.points := by decide +kernel



theorem thirteen_ticks : ∀ t ∈ thirteen, ∀ c, Datable (timeOf t.now (t.user c)) ∧ OneSample (t.user c) ∧ AsFloat plainLib (numberOf (t.user c)) (floatOf plainLib (numberOf (t.user c))) := by
  intro t ht
  simp only [thirteen, List.mem_map, List.mem_range] at ht
  obtain ⟨i, hi, rfl⟩ := ht
  have : ∀ i : Nat, i < 13 → (decide (1000 ≤ (DateTime.ofMicros (seconds (10 * (i : Int)))).year) &&
      decide ((DateTime.ofMicros (seconds (10 * (i : Int)))).year ≤ 9999)) = true := by decide +kernel
  exact fun c => ⟨datable_of (this i hi), .inl ⟨_, rfl⟩, float_small i hi⟩

/-- The VEN has three data points in two reports. The handler picks the voltage every ten seconds, to be sent every minute. Of thirteen samples, the function it
    gave gets twelve. -/
example : ∃ y, offerReports sampleLink sampleLink sampleServing (reportService (chooses 10 (some "Voltage")) true newId (fun _ => .ok ())) ones 0 false none
      (.str "ven1") "m1x" sampleAlong sampleOffering = (y, .ok ()) ∧
    let queue := (runTicks (.str "x") y.ven thirteen).1.pending
    ∃ log, ((⟨⟨true, queue, [], []⟩, [], y.vtn⟩ : Delivery).run sampleServing (reportService (chooses 10 (some "Voltage")) true newId (fun _ => .ok ())) false none
        (.str "ven1") (queue.map (fun _ => sampleTurn))).vtn = (y.vtn.1, y.vtn.2 ++ log) ∧
      deliveredTo log (.str "x") (.str "bx") = [(.datetime 0, .float "0.0"), (.datetime 10000000, .float "1.0"), (.datetime 20000000, .float "2.0"),
        (.datetime 30000000, .float "3.0"), (.datetime 40000000, .float "4.0"), (.datetime 50000000, .float "5.0"), (.datetime 60000000, .float "6.0"),
        (.datetime 70000000, .float "7.0"), (.datetime 80000000, .float "8.0"), (.datetime 90000000, .float "9.0"), (.datetime 100000000, .float "10.0"),
        (.datetime 110000000, .float "11.0")] ∧
      ∀ cb vs, ReportCall.deliver (.str "x") (.str "bx") cb vs ∈ log → cb = .func 7 := by
  have hinv : isInfix "INVALID".toList voltageReport.specifierId.toList = false := by decide +kernel
  obtain ⟨y, h1, h2⟩ := c90_delivered_partial (now := 0) (h := chooses 10 (some "Voltage")) (compact := true) (freshVen := newId) (fresh := newId) (user := fun _ => .ok ())
    (sampler := ones) sampleOffering_ready (calls := threeCalls) rfl (newId_ordinary _) (g := seconds 10) (b := seconds 60) (pick := fun _ => some 7) sample_reports
    (by rw [sample_reports]; decide +kernel)
    (by intro z hz; simp only [List.nil_append, List.mem_singleton] at hz; subst hz; exact sample_warm) sample_volt (by decide +kernel) (by rw [sample_pick]; decide)
    (by rw [sample_pick]; decide +kernel) (spans_of (by decide +kernel)) (by decide +kernel) (spans_of (by decide +kernel)) (by decide +kernel)
    (by rw [← isInfix_iff, hinv]; simp)
    (by
      rw [sample_pick]
      intro p hp t ht
      have hall : voltageReport.points.all (fun p => match p.rId with | .str t => !isInfix "INVALID".toList t.toList | _ => true) = true := by decide +kernel
      have := List.all_eq_true.mp hall p hp
      rw [ht] at this
      rw [← isInfix_iff]
      simpa using this) rfl (n := 6) (by decide) (by decide +kernel) (by decide +kernel) (fun _ => rfl)
  have hid : newId sampleOffering.vtn.1.ids = "x" := by decide +kernel
  rw [hid] at h2
  refine ⟨y, h1, ?_⟩
  simp only []
  generalize hq : (runTicks (.str "x") y.ven thirteen).1.pending = queue
  have hturns : ∀ l : List OutReport, Pointwise (fun o t => t.link.lib = sampleLink.lib ∧ t.Ready sampleServing false none [] "ven1" o) l (l.map (fun _ => sampleTurn)) := by
    intro l
    induction l with
    | nil => exact .nil
    | cons o l ih =>
      have hr : sampleTurn.Ready sampleServing false none [] "ven1" o :=
        ⟨sampleConnected "id2x" (ordinary_of (by decide +kernel)), ordinary_of (by decide +kernel), datable_of (by decide +kernel), fun _ _ => ⟨_, rfl⟩⟩
      exact .cons ⟨rfl, hr⟩ ih
  have e1 := h2 thirteen (fun t ht _ p _ => thirteen_ticks t ht _) (queue.map (fun _ => sampleTurn))
    ⟨⟨true, queue, [], []⟩, [], y.vtn⟩ rfl hq.symm rfl (hturns queue)
  have e2 := e1 ⟨.str "bx", some "dev", "Direct Read", "reading", ⟨10000000, 3600000000⟩, some 0⟩ (by simp [voltageReport]) 7 rfl
  clear e1 h2
  simp only [] at e2
  obtain ⟨log, h3, h4, h5⟩ := e2
  refine ⟨log, h3, ?_, h5⟩
  rw [h4]
  decide +kernel

/-! ### What is not kept -/

theorem appendSamples_one (usage : Bool) (b : Int) (g : Option Int) (r : Value) (t : Int) (v : Value) (acc : List OutInterval) :
    ∃ i, appendSamples usage (some b) g r [(t, v)] acc = (acc ++ [i], .ok ()) := by
  simp only [appendSamples]
  split
  · split <;> exact ⟨_, rfl⟩
  · exact ⟨_, rfl⟩

/-- At a tick, one value is taken for each data point of the list that belongs to the report. -/
theorem collect_count (callbacks : List ((Value × Value) × Value)) (user : Sampler) (spec : Value) (now : Int) (usage : Bool) (b : Int) (g : Option Int)
    (rids : List Value) (acc : List OutInterval) (hn : ∀ r ∈ rids, ∀ cb, getCallback callbacks (spec, r) = some cb → OneSample (user ⟨cb, r, .now⟩)) :
    ∃ calls acc', collectIncremental callbacks user spec now usage (some b) g rids acc = (calls, acc', .ok ()) ∧
      acc'.length = acc.length + (rids.filter (fun r => (getCallback callbacks (spec, r)).isSome)).length := by
  induction rids generalizing acc with
  | nil => exact ⟨[], acc, rfl, by simp⟩
  | cons r rids ih =>
    have ih' := fun acc => ih acc (fun x hx => hn x (by simp [hx]))
    cases hc : getCallback callbacks (spec, r) with
    | none =>
      obtain ⟨calls, acc', h1, h2⟩ := ih' acc
      exact ⟨calls, acc', by simp only [collectIncremental, hc, h1], by rw [List.filter_cons_of_neg (by simp [hc])]; exact h2⟩
    | some cb =>
      have hv := (hn r (by simp) cb hc).pairs now
      obtain ⟨i, hi⟩ := appendSamples_one usage b g r (timeOf now (user ⟨cb, r, .now⟩)) (numberOf (user ⟨cb, r, .now⟩)) acc
      obtain ⟨calls, acc', h1, h2⟩ := ih' (acc ++ [i])
      refine ⟨⟨cb, r, .now⟩ :: calls, acc', by simp only [collectIncremental, hc, hv, hi, h1], ?_⟩
      rw [List.filter_cons_of_pos (by simp [hc]), h2]
      simp only [List.length_append, List.length_cons, List.length_nil]
      omega

/-- One tick of a report that gets `m` values at each tick but is to have a number of values that is no multiple of `m`. -/
theorem stuck_tick {q : Value} {rq : VenRequest} {report : VenReport} {rids : List Value} {b g : Int} (hm : report.full = false) (hb : rq.reportBack = some b)
    (hg : rq.granularity = some g) (hg0 : 0 < g) (hgb : g < b) {m : Nat} (hd : ¬ (m : Int) ∣ rids.length * Int.tdiv b g) {t : Tick} {s : VenReports}
    (h1 : s.requests.find? (fun r => decide (r.requestId = q)) = some rq)
    (h2 : s.reports.find? (fun r => decide (Value.str r.specifierId = rq.specifierId)) = some report) (h3 : s.lists[rq.rIds]? = some rids)
    (h4 : (rids.filter (fun r => (getCallback s.callbacks (rq.specifierId, r)).isSome)).length = m) (hn : ∀ c, OneSample (t.user c))
    (hi : ∀ o, getIncomplete s.incomplete q = some o → m ∣ o.intervals.length) :
    (updateReport t.user t.now s q).1.pending = s.pending ∧ ∀ o, getIncomplete (updateReport t.user t.now s q).1.incomplete q = some o → m ∣ o.intervals.length := by
  generalize hout : (getIncomplete s.incomplete q).getD ⟨q, report.specifierId, outName report.name, none, []⟩ = out
  obtain ⟨calls, acc', e1, e2⟩ := collect_count s.callbacks t.user rq.specifierId t.now (decide (outName report.name = "TELEMETRY_USAGE")) b rq.granularity rids
    out.intervals (fun _ _ _ _ => hn _)
  have hdiv : m ∣ acc'.length := by
    rw [e2, h4]
    refine Nat.dvd_add ?_ (Nat.dvd_refl m)
    rw [← hout]
    cases hgi : getIncomplete s.incomplete q with
    | none => exact ⟨0, rfl⟩
    | some o => exact hi o hgi
  have hne : ¬ (acc'.length : Int) = rids.length * Int.tdiv b g := by
    intro he
    apply hd
    rw [← he]
    exact Int.natCast_dvd_natCast.mpr hdiv
  have hupd : (updateReport t.user t.now s q).1 = { s with incomplete := setIncomplete s.incomplete q (finished out acc') } := by
    unfold updateReport
    rw [h1]; simp only []; rw [h2]; simp only []
    rw [hout, collect, hm]
    simp only [Bool.false_eq_true, if_false, h3, Option.getD_some]
    rw [hb, e1]
    simp only [expectedLen, Bool.false_eq_true, if_false, hg, hg0, hgb, and_self, if_true, hne]
  rw [hupd]
  refine ⟨rfl, ?_⟩
  intro o ho
  simp only [getIncomplete_set_self, Option.some.injEq] at ho
  rw [← ho]
  exact hdiv

/-- Such a report is never sent. -/
theorem never_sent {q : Value} {rq : VenRequest} {report : VenReport} {rids : List Value} {b g : Int} (hm : report.full = false) (hb : rq.reportBack = some b)
    (hg : rq.granularity = some g) (hg0 : 0 < g) (hgb : g < b) {m : Nat} (hd : ¬ (m : Int) ∣ rids.length * Int.tdiv b g) (ticks : List Tick) :
    ∀ s : VenReports, s.requests.find? (fun r => decide (r.requestId = q)) = some rq →
      s.reports.find? (fun r => decide (Value.str r.specifierId = rq.specifierId)) = some report → s.lists[rq.rIds]? = some rids →
      (rids.filter (fun r => (getCallback s.callbacks (rq.specifierId, r)).isSome)).length = m →
      (∀ t ∈ ticks, t.request = q → ∀ c, OneSample (t.user c)) → Keyed s → (∀ o, getIncomplete s.incomplete q = some o → m ∣ o.intervals.length) →
      (∀ o ∈ s.pending, o.requestId ≠ q) → ∀ o ∈ (runTicks q s ticks).1.pending, o.requestId ≠ q := by
  induction ticks with
  | nil => intro s _ _ _ _ _ _ _ hp; exact hp
  | cons t ts ih =>
    intro s h1 h2 h3 h4 hn hk hi hp
    rw [runTicks]
    simp only []
    obtain ⟨k1, new, k2, k3⟩ := updateReport_keyed t.user t.now s t.request hk
    have hs := updateReport_sameBut t.user t.now s t.request
    have key : (∀ o, getIncomplete (updateReport t.user t.now s t.request).1.incomplete q = some o → m ∣ o.intervals.length) ∧
        ∀ o ∈ (updateReport t.user t.now s t.request).1.pending, o.requestId ≠ q := by
      by_cases ht : t.request = q
      · obtain ⟨g1, g2⟩ := stuck_tick hm hb hg hg0 hgb hd h1 h2 h3 h4 (hn t (by simp) ht) hi
        rw [ht, g1]
        exact ⟨g2, hp⟩
      · refine ⟨fun o ho => hi o ((hs.incomplete q (Ne.symm ht)) ▸ ho), ?_⟩
        rw [k2]
        intro o ho
        rcases List.mem_append.mp ho with ho | ho
        · exact hp o ho
        · rw [k3 o ho]; exact ht
    exact ih _ (by rw [hs.requests]; exact h1) (by rw [hs.reports]; exact h2) (by rw [hs.lists]; exact h3) (by rw [hs.callbacks]; exact h4)
      (fun x hx => hn x (by simp [hx])) k1 key.1 key.2

/-- What the VTN of the sample makes of the offers. -/
def chosenRequests (g : Int) (what : Option String) : List RequestOut :=
  match registerReport (chooses g what) true newId sampleOffering.vtn.1 "ven1" (offersOf sampleOffering.ven.heap sampleOffering.ven.reports) with
  | (_, .ok out) => out
  | _ => []

/-- The VEN of the sample after the handler chose something. -/
def chosenVen (g : Int) (what : Option String) : VenReports := (createReport ones 0 sampleOffering.ven ((chosenRequests g what).map RequestOut.asked)).1

/-- **C90, refuted** for a handler that chooses from two reports, here with two and with one data point, every twenty seconds to be sent every minute: the
    VTN keeps the functions for all data points and notes both requests as created. But the VEN waits for nine values of the first report, of which it takes two
    at a time: however often the reports are updated, and whatever values the callbacks of the VEN answer, none of the first report is ever sent. -/
theorem c90_two_reports_violated : ∃ y, offerReports sampleLink sampleLink sampleServing (reportService (chooses 20 none) true newId (fun _ => .ok ())) ones 0 false none
      (.str "ven1") "m1x" sampleAlong sampleOffering = (y, .ok ()) ∧
    getCallback y.vtn.1.callbacks (.str "x", .str "ax") = some (.func 7) ∧ getCallback y.vtn.1.callbacks (.str "x", .str "bx") = some (.func 7) ∧
    Dict.get? y.vtn.1.created "ven1" = some [.str "x", .str "xi"] ∧
    ∀ ticks : List Tick, (∀ t ∈ ticks, t.request = .str "x" → ∀ c, OneSample (t.user c)) →
      ∀ o ∈ (runTicks (.str "x") y.ven ticks).1.pending, o.requestId ≠ .str "x" := by
  have hreg : registerReport (chooses 20 none) true newId sampleOffering.vtn.1 "ven1" (offersOf sampleOffering.ven.heap sampleOffering.ven.reports) =
      ((registerReport (chooses 20 none) true newId sampleOffering.vtn.1 "ven1" (offersOf sampleOffering.ven.heap sampleOffering.ven.reports)).1,
        .ok (chosenRequests 20 none)) := by
    have : (registerReport (chooses 20 none) true newId sampleOffering.vtn.1 "ven1" (offersOf sampleOffering.ven.heap sampleOffering.ven.reports)).2 =
      .ok (chosenRequests 20 none) := by decide +kernel
    rw [← this]
  have hcr : createReport ones 0 sampleOffering.ven ((chosenRequests 20 none).map RequestOut.asked) =
      (chosenVen 20 none, (createReport ones 0 sampleOffering.ven ((chosenRequests 20 none).map RequestOut.asked)).2.1, .ok ⟨200, [.str "x", .str "xi"]⟩) := by
    have : (createReport ones 0 sampleOffering.ven ((chosenRequests 20 none).map RequestOut.asked)).2.2 = .ok ⟨200, [.str "x", .str "xi"]⟩ := by decide +kernel
    rw [chosenVen, ← this]
  refine ⟨_, (c89_offered (now := 0) (user := fun _ => .ok ()) (sampler := ones) sampleOffering_ready (chooses_whole (spans_of (by decide +kernel)) none) newId_ordinary
    hreg).2.1 _ _ _ (by decide +kernel) hcr, ?_, ?_, ?_, ?_⟩
  · decide +kernel
  · decide +kernel
  · decide +kernel
  · intro ticks hn
    have hi : (chosenVen 20 none).incomplete = [] := by decide +kernel
    have hp : (chosenVen 20 none).pending = [] := by decide +kernel
    refine never_sent (q := .str "x") (rq := ⟨.str "x", .str "s1x", some (seconds 60), 0, some (seconds 20), some 0⟩) (report := voltageReport)
      (rids := [.str "ax", .str "bx", .str "cx"]) (b := seconds 60) (g := seconds 20) (m := 2) rfl rfl rfl (by decide +kernel) (by decide +kernel) (by decide +kernel)
      ticks (chosenVen 20 none) (by decide +kernel) (by decide +kernel) (by decide +kernel) (by decide +kernel) hn ?_ ?_ ?_
    · intro k o hko; simp [hi, getIncomplete] at hko
    · intro o ho; simp [hi, getIncomplete] at ho
    · intro o ho; simp [hp] at ho

end Openleadr
