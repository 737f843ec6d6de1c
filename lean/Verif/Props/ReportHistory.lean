import Verif.Props.ReportLife
import Verif.Props.ReportsEndToEnd
/-!
C109 from the beginning: the history begins with the offer of the reports.
-/
namespace Openleadr

theorem atOnce_turns (t : Turn) (steps : List WaitingStep) : ∀ w : List Value, (ReportStep.turn t ∈ atOnce w steps → WaitingStep.turn t ∈ steps) ∧
    (ReportStep.answerLost t ∈ atOnce w steps → WaitingStep.answerLost t ∈ steps) := by
  induction steps with
  | nil => intro w; simp [atOnce]
  | cons s steps ih =>
    intro w
    cases s with
    | lost => simpa [atOnce] using ih w
    | turn t' => exact ⟨fun h => by
        simp only [atOnce, List.mem_cons, ReportStep.turn.injEq] at h
        rcases h with rfl | h
        · simp
        · exact List.mem_cons_of_mem _ ((ih w).1 h), fun h => by
        simp only [atOnce, List.mem_cons, reduceCtorEq, false_or] at h
        exact List.mem_cons_of_mem _ ((ih w).2 h)⟩
    | answerLost t' => exact ⟨fun h => by
        simp only [atOnce, List.mem_cons, reduceCtorEq, false_or] at h
        exact List.mem_cons_of_mem _ ((ih w).1 h), fun h => by
        simp only [atOnce, List.mem_cons, ReportStep.answerLost.injEq] at h
        rcases h with rfl | h
        · simp
        · exact List.mem_cons_of_mem _ ((ih w).2 h)⟩
    | sample s =>
      cases s with
      | begins q => simpa [atOnce] using ih (q :: w)
      | ends q user now =>
        simp only [atOnce]
        split
        · simpa using ih (w.filter (fun k => decide (k ≠ q)))
        · simpa using ih (w.filter (fun k => decide (k ≠ q)))

/-- **C109** from the offer on (partial: as for C90, of the handler's choice). The VEN offers the reports that were added, the handler of the VTN picks data points, the
    VEN confirms the request. Then updates of its reports wait for their values and the worker sends complete reports, side by side, in any order; answers of the VTN
    may be lost. The function that the handler picked for a data point has been handed what the callback of this data point answered at the VEN, in order, each
    value once, except for what waits in the queue; and no other function was called for the data point. -/
theorem c109_from_offer_partial {k k' : Link} {c : Config} {h : ReportAsk → Res Value} {compact : Bool} {freshVen fresh : Nat → String} {user : ReportCall → Res Unit}
    {sampler : Sampler} {secure : Bool} {peer : Option String} {ven rid : String} {a : Along} {x : Offering} (ready : x.Ready' k k' c secure peer ven rid a)
    {calls : List AddReport} (hx : x.ven = addAll freshVen newVenReports calls) (hf : Ordinary k.lib (fresh x.vtn.1.ids))
    {g b : Int} {pre post : List VenReport} {r : VenReport} {pick : VenPoint → Option Nat}
    (hrs : x.ven.reports = pre ++ r :: post) (hspec : x.ven.reports.Pairwise (fun p q => p.specifierId ≠ q.specifierId))
    (hothers : ∀ y ∈ pre ++ post, Picks h compact ven x.ven.heap g b y (fun _ => none)) (hr : Picks h compact ven x.ven.heap g b r pick)
    (hd : r.points.Pairwise (fun p q => p.rId ≠ q.rId)) (hsome : picked pick r.points ≠ [])
    (hrange : ∀ p ∈ picked pick r.points, p.rate.minPeriod ≤ g ∧ g ≤ p.rate.maxPeriod) (hg : Spans g) (hg0 : 0 < g) (hb : Spans b)
    (hcron : (cronConfig g false).valid = true) (hinv : ¬ Occurs "INVALID".toList r.specifierId.toList)
    (hinv' : ∀ p ∈ picked pick r.points, ∀ t, p.rId = .str t → ¬ Occurs "INVALID".toList t.toList)
    (hmode : r.full = false) {n : Nat} (hn : 2 ≤ n) (h1 : n * g ≤ b) (h2 : b < (n + 1) * g) (hu : ∀ call, user call = .ok ()) :
    let id := fresh x.vtn.1.ids
    let svc := reportService h compact fresh user
    ∃ y, offerReports k k' c svc sampler now secure peer (.str ven) rid a x = (y, .ok ()) ∧
      ∀ (z : Reporting) (steps : List WaitingStep), z.ven = y.ven → z.delivery.vtn = y.vtn → z.delivery.worker.running = true → z.delivery.worker.queue = [] →
        NoOverlap [] (WaitingStep.samples steps) →
        (∀ t ∈ ReportStep.ticks (atOnce [] steps), t.request = .str id → ∀ p ∈ picked pick r.points,
          let answer := t.user ⟨x.ven.callbackOf r.specifierId p.rId, p.rId, .now⟩
          Datable (timeOf t.now answer) ∧ OneSample answer ∧ AsFloat k.lib (numberOf answer) (floatOf k.lib (numberOf answer))) →
        (∀ t, WaitingStep.turn t ∈ steps ∨ WaitingStep.answerLost t ∈ steps → t.link.lib = k.lib ∧
          ∀ o : OutReport, o.Sendable k.lib → t.Ready c secure peer z.delivery.cache ven o) →
        let final := (Waiting.run c svc secure peer (.str ven) ⟨z, []⟩ steps).reporting
        ∃ log, final.delivery.vtn = (y.vtn.1, y.vtn.2 ++ log) ∧
          ∀ p ∈ r.points, ∀ f, pick p = some f →
            (deliveredTo log (.str id) p.rId ++ waiting k.lib id p.rId final.delivery.worker.queue).Sublist
              (answered k.lib id (x.ven.callbackOf r.specifierId) n p.rId (ReportStep.ticks (atOnce [] steps))) ∧
            (WaitingStep.lost ∉ steps → deliveredTo log (.str id) p.rId ++ waiting k.lib id p.rId final.delivery.worker.queue =
              answered k.lib id (x.ven.callbackOf r.specifierId) n p.rId (ReportStep.ticks (atOnce [] steps))) ∧
            ∀ cb vs, ReportCall.deliver (.str id) p.rId cb vs ∈ log → cb = .func f := by
  intro id svc
  have hna : NothingAsked x.ven := by rw [hx]; exact addAll_nothingAsked _ _ ⟨rfl, rfl, rfl, rfl⟩
  have hoff : r.Offerable k.lib x.ven.heap a := ready.reports r (by simp [hrs])
  have hb0 : 0 < b := by
    have : 0 < (n : Int) * g := Int.mul_pos (by omega) hg0
    omega
  obtain ⟨vtn, h3, h4, h5, -⟩ := c89_as_chosen_partial (now := now) (user := user) (sampler := sampler) ready hf (by intro j hj; rw [hna.jobs] at hj; simp at hj) hrs hspec hothers hr hd
    hsome hrange hg (by omega) hb hb0 hcron hinv hinv'
  refine ⟨_, h3, ?_⟩
  intro z steps hven hvtn hz hqueue hno hticks hturns
  have hsid : ∀ q ∈ picked pick r.points, getCallback x.ven.callbacks (.str r.specifierId, q.rId) = some (x.ven.callbackOf r.specifierId q.rId) := by
    intro q hq
    have hmem : (r.specifierId, q.rId) ∈ offeredKeys (addAll freshVen newVenReports calls) := by
      rw [← hx]
      simp only [offeredKeys, List.mem_flatMap, List.mem_map]
      exact ⟨r, by simp [hrs], q, (List.mem_filter.mp hq).1, rfl⟩
    have := (c57_addressable freshVen calls r.specifierId q.rId).mp hmem
    rw [← hx] at this
    obtain ⟨cb, hcb⟩ := Option.isSome_iff_exists.mp this
    rw [hcb, VenReports.callbackOf, hcb]
    rfl
  let v : VenReports :=
    { x.ven with
      lists := x.ven.lists ++ [(picked pick r.points).map VenPoint.rId]
      jobs := x.ven.jobs ++ [⟨x.ven.jobIds, .str id, .cron (cronConfig g false)⟩]
      jobIds := x.ven.jobIds + 1
      requests := x.ven.requests ++ [⟨.str id, .str r.specifierId, some b, x.ven.lists.length, some g, some x.ven.jobIds⟩] }
  have hzv : z.ven = v := hven
  have hvi : v.incomplete = [] := hna.incomplete
  have hvr : v.requests = [⟨.str id, .str r.specifierId, some b, x.ven.lists.length, some g, some x.ven.jobIds⟩] := by simp [v, hna.requests]
  have hvs : v.reports = pre ++ r :: post := hrs
  have hvp : v.pending = [] := hna.pending
  have hkeyed : Keyed v := by intro k o hko; simp [hvi, getIncomplete] at hko
  have hreports : Reports k.lib z.ven id ((picked pick r.points).map VenPoint.rId) (x.ven.callbackOf r.specifierId) n (ReportStep.ticks (atOnce [] steps)) := by
    rw [hzv]
    refine ⟨⟨by simpa using hsome, List.Pairwise.map _ (fun a b h => h) (hd.filter _)⟩,
      ⟨b, g, ⟨.str id, .str r.specifierId, some b, x.ven.lists.length, some g, some x.ven.jobIds⟩, r,
        ⟨by rw [hvr]; simp, by rw [hvs]; exact find_report (hrs ▸ hspec), hmode, by simp [v], rfl, rfl, by
          intro y hy
          obtain ⟨q, hq, rfl⟩ := List.mem_map.mp hy
          exact hsid q hq⟩, hg0, h1, h2, hoff.specifierId, sent_name ready.connected.sound (picks_name hr hsome)⟩,
      hn, hkeyed, ⟨by simp [hvi, getIncomplete], hvp⟩, ?_, ?_, ⟨hf, ?_⟩, ?_⟩
    · intro t ht htq y hy
      obtain ⟨q, hq, rfl⟩ := List.mem_map.mp hy
      exact (hticks t ht htq q hq).2
    · intro t ht htq y hy
      obtain ⟨q, hq, rfl⟩ := List.mem_map.mp hy
      exact (hticks t ht htq q hq).1
    · intro y hy
      obtain ⟨q, hq, rfl⟩ := List.mem_map.mp hy
      exact (hoff.points q (List.mem_filter.mp hq).1).rId
    · intro o ho hne
      refine absurd (runTicks_pending (.str id) _ hkeyed ?_ ?_ o ho) hne
      · intro rq hrq
        rw [hvr, List.mem_singleton] at hrq
        rw [hrq]
      · intro o ho; simp [hvp] at ho
  have hready : AllReady k.lib c svc secure peer ven z (atOnce [] steps) := by
    obtain ⟨o1, -, -⟩ := hreports.own
    refine allReady_of (user := user) (show svc.Updates user from rfl) hu (.str id) z.delivery.cache (atOnce [] steps) z hz rfl hreports.idle.2 (by rw [hqueue]; exact o1) ?_
    intro t ht
    obtain ⟨t1, t2⟩ := hturns t (by
      rcases ht with ht | ht
      · exact .inl ((atOnce_turns t steps []).1 ht)
      · exact .inr ((atOnce_turns t steps []).2 ht))
    exact ⟨t1, fun o ho => t2 o (o1 o (by simpa [hqueue] using ho))⟩
  have one : ∀ p ∈ r.points, ∀ f, pick p = some f → _ := fun p hp f hpf =>
    c109_while_waiting (lib := k.lib) (c := c) (user := user) (svc := svc) rfl (secure := secure) (peer := peer) (ven := ven) hu z hz hqueue steps hno hreports hready
      p.rId (.func f) (List.mem_map.mpr ⟨p, List.mem_filter.mpr ⟨hp, by simp [hpf]⟩, rfl⟩) (by rw [hvtn]; exact h4 p hp f hpf)
  obtain ⟨p0, hp0⟩ := List.exists_mem_of_ne_nil _ hsome
  obtain ⟨hp0, hs0⟩ := List.mem_filter.mp hp0
  obtain ⟨f0, hf0⟩ := Option.isSome_iff_exists.mp hs0
  obtain ⟨-, log, e1, -⟩ := one p0 hp0 f0 hf0
  rw [hvtn] at e1
  refine ⟨log, e1, ?_⟩
  intro p hp f hpf
  obtain ⟨-, log', g1, g2, g3, g4⟩ := one p hp f hpf
  have hlog : log' = log := by
    rw [e1, hvtn] at g1
    simp only [Prod.mk.injEq, true_and] at g1
    exact (List.append_cancel_left g1).symm
  subst hlog
  refine ⟨g2, g3, ?_⟩
  intro cb vs hcb
  obtain ⟨q', r', cb', vs', i1, -, i3⟩ := g4 _ hcb
  simp only [ReportCall.deliver.injEq] at i1
  obtain ⟨rfl, rfl, rfl, rfl⟩ := i1
  rw [hvtn] at i3
  have := (h4 p hp f hpf).symm.trans i3
  exact (Option.some.inj this).symm

/-! ### A concrete case -/

/-- Thirteen updates, one every ten seconds; after the sixth and the twelfth one the worker sends a report while the next update waits for its values, and the answer
    to the second report is lost. -/
def thirteenSteps : List WaitingStep :=
  let step (i : Nat) : List WaitingStep :=
    .sample (.begins (.str "x")) :: (if i = 6 then [.turn sampleTurn] else if i = 12 then [.answerLost sampleTurn] else []) ++
      [.sample (.ends (.str "x") (fun _ => .number (.int i)) (seconds (10 * i)))]
  (List.range 13).flatMap step

theorem thirteenSteps_ticks : ReportStep.ticks (atOnce [] thirteenSteps) = thirteen := by
  simp [thirteenSteps, thirteen, List.range, List.range.loop, atOnce, ReportStep.ticks]

/-- From the offer on: the function that the handler gave for "bx" has the twelve values of both reports, or they wait. -/
example : ∃ y, offerReports sampleLink sampleLink sampleServing (reportService (chooses 10 (some "Voltage")) true newId (fun _ => .ok ())) ones 0 false none
      (.str "ven1") "m1x" sampleAlong sampleOffering = (y, .ok ()) ∧
    let final := (Waiting.run sampleServing (reportService (chooses 10 (some "Voltage")) true newId (fun _ => .ok ())) false none (.str "ven1")
      ⟨⟨y.ven, ⟨⟨true, [], [], []⟩, [], y.vtn⟩⟩, []⟩ thirteenSteps).reporting
    ∃ log, final.delivery.vtn = (y.vtn.1, y.vtn.2 ++ log) ∧
      deliveredTo log (.str "x") (.str "bx") ++ waiting plainLib "x" (.str "bx") final.delivery.worker.queue =
        [(.datetime 0, .float "0.0"), (.datetime 10000000, .float "1.0"), (.datetime 20000000, .float "2.0"),
        (.datetime 30000000, .float "3.0"), (.datetime 40000000, .float "4.0"), (.datetime 50000000, .float "5.0"), (.datetime 60000000, .float "6.0"),
        (.datetime 70000000, .float "7.0"), (.datetime 80000000, .float "8.0"), (.datetime 90000000, .float "9.0"), (.datetime 100000000, .float "10.0"),
        (.datetime 110000000, .float "11.0")] ∧
      ∀ cb vs, ReportCall.deliver (.str "x") (.str "bx") cb vs ∈ log → cb = .func 7 := by
  have hinv : isInfix "INVALID".toList voltageReport.specifierId.toList = false := by decide +kernel
  obtain ⟨y, h1, h2⟩ := c109_from_offer_partial (now := 0) (h := chooses 10 (some "Voltage")) (compact := true) (freshVen := newId) (fresh := newId) (user := fun _ => .ok ())
    (sampler := ones) sampleOffering_ready (calls := threeCalls) rfl (newId_ordinary _) (g := seconds 10) (b := seconds 60) (pick := fun _ => some 7) sample_reports
    (by rw [sample_reports]; decide +kernel)
    (by intro z hz; simp only [List.nil_append, List.mem_singleton] at hz; subst hz; exact sample_warm) sample_volt (by decide +kernel) (by rw [sample_pick]; decide)
    (by rw [sample_pick]; decide +kernel) (spans_of (by decide +kernel)) (by decide +kernel) (spans_of (by decide +kernel)) (by decide +kernel)
    (by rw [← isInfix_iff, hinv]; simp)
    (by
      rw [sample_pick]
      intro p hp t ht
      have hall : voltageReport.points.all (fun p => match p.rId with | .str t => !isInfix "INVALID".toList t.toList | _ => true) = true := by decide +kernel
      have := List.all_eq_true.mp hall p hp
      rw [ht] at this
      rw [← isInfix_iff]
      simpa using this) rfl (n := 6) (by decide) (by decide +kernel) (by decide +kernel) (fun _ => rfl)
  have hid : newId sampleOffering.vtn.1.ids = "x" := by decide +kernel
  rw [hid] at h2
  refine ⟨y, h1, ?_⟩
  have e1 := h2 ⟨y.ven, ⟨⟨true, [], [], []⟩, [], y.vtn⟩⟩ thirteenSteps rfl rfl rfl rfl
    (by simp [thirteenSteps, List.range, List.range.loop, WaitingStep.samples, NoOverlap])
    (by rw [thirteenSteps_ticks]; exact fun t ht _ p _ => thirteen_ticks t ht _)
    (by
      intro t ht
      have : t = sampleTurn := by
        simpa [thirteenSteps, List.range, List.range.loop] using ht
      rw [this]
      exact ⟨rfl, fun o _ => ⟨sampleConnected "id2x" (ordinary_of (by decide +kernel)), ordinary_of (by decide +kernel), datable_of (by decide +kernel), fun _ _ => ⟨_, rfl⟩⟩⟩)
  obtain ⟨log, h3, h4⟩ := e1
  obtain ⟨-, h5, h6⟩ := h4 ⟨.str "bx", some "dev", "Direct Read", "reading", ⟨10000000, 3600000000⟩, some 0⟩ (by simp [voltageReport]) 7 rfl
  refine ⟨log, h3, ?_, h6⟩
  refine (h5 (by simp [thirteenSteps, List.range, List.range.loop])).trans ?_
  rw [thirteenSteps_ticks]
  decide +kernel

end Openleadr
