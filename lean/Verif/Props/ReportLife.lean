import Verif.Model.ReportLife
import Verif.Props.ReportExchange
import Verif.Props.Sampling
/-!
C109: over a whole history, in which reports are updated while others are sent, every value is handed over once.
-/
namespace Openleadr

/-! ### What a history says -/

/-- The updates of a history. -/
def ReportStep.ticks : List ReportStep → List Tick
  | [] => []
  | .update user now request :: steps => ⟨request, user, now⟩ :: ReportStep.ticks steps
  | _ :: steps => ReportStep.ticks steps

/-- Every report that is sent to the VTN can be: the two sides are connected, as in C88. -/
def AllReady (lib : Lib) (c : Config) (svc : Service ReportVtn) (secure : Bool) (peer : Option String) (ven : String) : Reporting → List ReportStep → Prop
  | _, [] => True
  | x, s :: steps =>
    (∀ t, s = .turn t ∨ s = .answerLost t → ∀ o rest, x.delivery.worker.queue = o :: rest → t.link.lib = lib ∧ t.Ready c secure peer x.delivery.cache ven o) ∧
    AllReady lib c svc secure peer ven (x.step c svc secure peer (.str ven) s) steps

/-! ### Updates do not look at the queue -/

theorem updateReport_queue (user : Sampler) (now : Int) (s : VenReports) (p : List OutReport) (q : Value) :
    updateReport user now { s with pending := p } q =
      ({ (updateReport user now { s with pending := [] } q).1 with pending := p ++ (updateReport user now { s with pending := [] } q).1.pending },
        (updateReport user now { s with pending := [] } q).2) := by
  unfold updateReport
  simp only []
  cases s.requests.find? (fun r => decide (r.requestId = q)) with
  | none => simp
  | some rq =>
    simp only []
    cases s.reports.find? (fun r => decide (Value.str r.specifierId = rq.specifierId)) with
    | none => simp
    | some report =>
      simp only []
      have hc : ∀ acc, collect { s with pending := p } user now rq report acc = collect { s with pending := [] } user now rq report acc := fun _ => rfl
      rw [hc]
      cases collect { s with pending := [] } user now rq report ((getIncomplete s.incomplete q).getD ⟨q, report.specifierId, outName report.name, none, []⟩).intervals with
      | mk calls rest =>
        obtain ⟨intervals, res⟩ := rest
        cases res with
        | error e =>
          simp only [keepPartial]
          cases getIncomplete s.incomplete q with
          | none => simp
          | some o => simp only []; split <;> simp
        | ok u =>
          cases u
          simp only []
          cases expectedLen report.full rq.reportBack rq.granularity ((s.lists[rq.rIds]?).getD []).length with
          | error e => cases getIncomplete s.incomplete q <;> simp
          | ok n =>
            cases n with
            | none => cases getIncomplete s.incomplete q <;> simp
            | some n =>
              simp only []
              split
              · cases getIncomplete s.incomplete q <;> simp
              · simp

theorem runTicks_queue (q : Value) (ts : List Tick) : ∀ (s : VenReports) (p : List OutReport),
    (runTicks q { s with pending := p } ts).1 =
      { (runTicks q { s with pending := [] } ts).1 with pending := p ++ (runTicks q { s with pending := [] } ts).1.pending } := by
  induction ts with
  | nil => intro s p; simp [runTicks]
  | cons t ts ih =>
    intro s p
    simp only [runTicks]
    rw [updateReport_queue]
    generalize updateReport t.user t.now { s with pending := [] } t.request = r
    simp only []
    rw [ih r.1 (p ++ r.1.pending)]
    have := ih r.1 r.1.pending
    rw [show ({ r.1 with pending := r.1.pending } : VenReports) = r.1 from rfl] at this
    rw [this, List.append_assoc]

/-- The reports that an update adds, and those of the later updates. -/
theorem runTicks_step (q : Value) (t : Tick) (ts : List Tick) (s : VenReports) :
    (runTicks q s (t :: ts)).1.pending = (updateReport t.user t.now s t.request).1.pending ++
      (runTicks q { (updateReport t.user t.now s t.request).1 with pending := [] } ts).1.pending := by
  simp only [runTicks]
  have := runTicks_queue q ts (updateReport t.user t.now s t.request).1 (updateReport t.user t.now s t.request).1.pending
  rw [show ({ (updateReport t.user t.now s t.request).1 with pending := (updateReport t.user t.now s t.request).1.pending } : VenReports) =
    (updateReport t.user t.now s t.request).1 from rfl] at this
  rw [this]

theorem runTicks_append (q : Value) (a b : List Tick) : ∀ s : VenReports, (runTicks q s (a ++ b)).1 = (runTicks q (runTicks q s a).1 b).1 := by
  induction a with
  | nil => intro s; rfl
  | cons t a ih => intro s; simp only [List.cons_append, runTicks]; exact ih _

theorem ticks_append (a b : List ReportStep) : ReportStep.ticks (a ++ b) = ReportStep.ticks a ++ ReportStep.ticks b := by
  induction a with
  | nil => rfl
  | cons s a ih => cases s <;> simp [ReportStep.ticks, ih]

theorem reporting_append (c : Config) (svc : Service ReportVtn) (secure : Bool) (peer : Option String) (ven : Value) (a b : List ReportStep) : ∀ x : Reporting,
    x.run c svc secure peer ven (a ++ b) = (x.run c svc secure peer ven a).run c svc secure peer ven b := by
  induction a with
  | nil => intro x; rfl
  | cons s a ih => intro x; simp only [List.cons_append, Reporting.run]; exact ih _

theorem allReady_append {lib : Lib} {c : Config} {svc : Service ReportVtn} {secure : Bool} {peer : Option String} {ven : String} (a b : List ReportStep) :
    ∀ x : Reporting, AllReady lib c svc secure peer ven x (a ++ b) →
      AllReady lib c svc secure peer ven x a ∧ AllReady lib c svc secure peer ven (x.run c svc secure peer (.str ven) a) b := by
  induction a with
  | nil => intro x h; exact ⟨trivial, h⟩
  | cons s a ih => intro x h; exact ⟨⟨h.1, (ih _ h.2).1⟩, (ih _ h.2).2⟩

/-- What the VEN knows after a history, apart from the queue. -/
theorem reporting_ven (c : Config) (svc : Service ReportVtn) (secure : Bool) (peer : Option String) (ven q : Value) (steps : List ReportStep) : ∀ x : Reporting,
    x.ven.pending = [] → (x.run c svc secure peer ven steps).ven = { (runTicks q x.ven (ReportStep.ticks steps)).1 with pending := [] } := by
  induction steps with
  | nil => intro x hp; simp only [Reporting.run, ReportStep.ticks, runTicks]; rw [← hp]
  | cons s steps ih =>
    intro x hp
    rw [Reporting.run]
    cases s with
    | update us now request =>
      rw [ih _ rfl]
      simp only [ReportStep.ticks, runTicks, Reporting.step, Reporting.update]
      have := runTicks_queue q (ReportStep.ticks steps) (updateReport us now x.ven request).1 (updateReport us now x.ven request).1.pending
      rw [show ({ (updateReport us now x.ven request).1 with pending := (updateReport us now x.ven request).1.pending } : VenReports) =
        (updateReport us now x.ven request).1 from rfl] at this
      rw [this]
    | turn t => exact ih _ hp
    | answerLost t => exact ih _ hp
    | lost => exact ih _ hp

/-! ### The invariant -/

/-- What became of the reports of a history: those that left the queue (`done`) and those that are in it are all that ever were in it, in order; of those that left
    it, some reached the VTN (`kept`), and these made the calls. -/
structure ReportsKept (lib : Lib) (callbacks : List ((Value × Value) × Value)) (all done queue kept : List OutReport) (calls : List ReportCall) : Prop where
  order : done ++ queue = all
  among : kept.Sublist done
  values : ∀ q r, deliveredTo calls q r = if getCallback callbacks (q, r) = none then [] else
    (kept.filter (fun o => decide (o.requestId = q))).flatMap (fun o => o.samples lib r)
  each : ∀ call ∈ calls, ∃ q r cb vs, call = .deliver q r cb vs ∧ vs ≠ [] ∧ getCallback callbacks (q, r) = some cb

theorem ReportsKept.nothing {lib : Lib} {callbacks : List ((Value × Value) × Value)} (queue : List OutReport) : ReportsKept lib callbacks queue [] queue [] [] :=
  ⟨rfl, .slnil, fun q r => by simp [deliveredTo], by simp⟩

/-- A report is handed over, and then the others. -/
theorem ReportsKept.handed {lib : Lib} {callbacks : List ((Value × Value) × Value)} {all done queue kept : List OutReport} {calls now : List ReportCall} {o : OutReport}
    (h : ReportsKept lib callbacks all done queue kept calls) (hn : CallsFor callbacks lib o now) :
    ReportsKept lib callbacks (o :: all) (o :: done) queue (o :: kept) (now ++ calls) := by
  refine ⟨by rw [List.cons_append, h.order], h.among.cons_cons o, fun q r => ?_, fun call hm => ?_⟩
  · rw [deliveredTo_append, h.values, hn.values, List.filter_cons]
    by_cases hq : o.requestId = q
    · subst hq
      by_cases hg : getCallback callbacks (o.requestId, r) = none <;> simp [hg]
    · simp [hq, Ne.symm hq]
  · rw [List.mem_append] at hm
    rcases hm with hm | hm
    · obtain ⟨r, cb, e1, e2, e3⟩ := hn.each call hm
      exact ⟨_, r, cb, _, e1, e2, e3⟩
    · exact h.each call hm

/-- A report is lost, and then the others. -/
theorem ReportsKept.dropped {lib : Lib} {callbacks : List ((Value × Value) × Value)} {all done queue kept : List OutReport} {calls : List ReportCall} (o : OutReport)
    (h : ReportsKept lib callbacks all done queue kept calls) : ReportsKept lib callbacks (o :: all) (o :: done) queue kept calls :=
  ⟨by rw [List.cons_append, h.order], h.among.cons o, h.values, h.each⟩

theorem reporting_kept {lib : Lib} {c : Config} {user : ReportCall → Res Unit} {svc : Service ReportVtn} (hsvc : svc.Updates user) {secure : Bool}
    {peer : Option String} {ven : String} (hu : ∀ call, user call = .ok ()) (q : Value) (steps : List ReportStep) : ∀ (x : Reporting), x.delivery.worker.running = true →
    x.delivery.vtn.1.callbacks ≠ [] → AllReady lib c svc secure peer ven x steps →
    (∀ o ∈ x.delivery.worker.queue ++ (runTicks q { x.ven with pending := [] } (ReportStep.ticks steps)).1.pending, o.Sendable lib) → x.ven.pending = [] →
    (x.run c svc secure peer (.str ven) steps).delivery.worker.running = true ∧
    ∃ done kept calls, (x.run c svc secure peer (.str ven) steps).delivery.vtn = (x.delivery.vtn.1, x.delivery.vtn.2 ++ calls) ∧
      ReportsKept lib x.delivery.vtn.1.callbacks (x.delivery.worker.queue ++ (runTicks q { x.ven with pending := [] } (ReportStep.ticks steps)).1.pending) done
        (x.run c svc secure peer (.str ven) steps).delivery.worker.queue kept calls ∧
      (ReportStep.lost ∉ steps → kept = done) := by
  have huser : user = fun _ => .ok () := funext hu
  induction steps with
  | nil =>
    intro x hw _ _ _ _
    refine ⟨hw, [], [], [], by simp [Reporting.run], ?_, fun _ => rfl⟩
    simpa [ReportStep.ticks, runTicks, Reporting.run] using ReportsKept.nothing x.delivery.worker.queue
  | cons s steps ih =>
    intro x hw hcb hready hall hp
    obtain ⟨hr, hrest⟩ := hready
    rw [Reporting.run]
    have hven : ({ x.ven with pending := [] } : VenReports) = x.ven := by rw [← hp]
    cases s with
    | update us now request =>
      rw [hven] at hall ⊢
      have hall' := hall
      simp only [ReportStep.ticks, runTicks_step, ← List.append_assoc] at hall' ⊢
      obtain ⟨h1, done, kept, calls, h2, h3, h4⟩ := ih (x.update us now request) hw hcb hrest hall' rfl
      exact ⟨h1, done, kept, calls, h2, h3, fun hn => h4 (fun hm => hn (by simp [hm]))⟩
    | lost =>
      cases hq : x.delivery.worker.queue with
      | nil =>
        have hx : x.step c svc secure peer (.str ven) .lost = x := by
          simp [Reporting.step, Sender.turn, hq]
        rw [hx] at hrest ⊢
        obtain ⟨h1, done, kept, calls, h2, h3, -⟩ := ih x hw hcb hrest hall hp
        rw [hq] at h3
        exact ⟨h1, done, kept, calls, h2, h3, fun hn => absurd (by simp) hn⟩
      | cons o rest =>
        have hx : x.step c svc secure peer (.str ven) .lost =
            { x with delivery := { x.delivery with worker := { x.delivery.worker with queue := rest, sent := x.delivery.worker.sent ++ [o] } } } := by
          rw [Reporting.step, turn_goes_on _ o rest hw hq (.inl rfl)]
        rw [hx] at hrest ⊢
        rw [hq] at hall
        obtain ⟨h1, done, kept, calls, h2, h3, -⟩ := ih _ (by exact hw) (by exact hcb) hrest (fun o ho => hall o (by
          simp only [List.cons_append, List.mem_cons]; exact .inr ho)) (by exact hp)
        exact ⟨h1, o :: done, kept, calls, h2, h3.dropped o, fun hn => absurd (by simp) hn⟩
    | turn t =>
      cases hq : x.delivery.worker.queue with
      | nil =>
        have hx : x.step c svc secure peer (.str ven) (.turn t) = x := by
          simp [Reporting.step, Delivery.turn, hq, hw]
        rw [hx] at hrest ⊢
        obtain ⟨h1, done, kept, calls, h2, h3, h4⟩ := ih x hw hcb hrest hall hp
        rw [hq] at h3
        exact ⟨h1, done, kept, calls, h2, h3, fun hn => h4 (fun hm => hn (by simp [hm]))⟩
      | cons o rest =>
        obtain ⟨hlib, hready⟩ := hr t (.inl rfl) o rest hq
        rw [hq] at hall
        have hs := hall o (by simp)
        subst hlib
        have hx := delivery_turn hsvc hready hs (fun call e he => by rw [hu] at he; cases he) hw hq
        have hx' : x.step c svc secure peer (.str ven) (.turn t) = { x with delivery := x.delivery.turn c svc secure peer (.str ven) t } := rfl
        rw [hx', hx] at hrest ⊢
        obtain ⟨h1, done, kept, calls, h2, h3, h4⟩ := ih _ (by exact hw) (by exact hcb) hrest (fun o ho => hall o (by
          simp only [List.cons_append, List.mem_cons]; exact .inr ho)) (by exact hp)
        refine ⟨h1, o :: done, o :: kept, _, by rw [h2]; simp only [List.append_assoc]; rfl, h3.handed (now := _) ?_, fun hn => ?_⟩
        · rw [huser]; exact callsFor_arrived hcb t.created hs
        · rw [h4 (fun hm => hn (by simp [hm]))]
    | answerLost t =>
      cases hq : x.delivery.worker.queue with
      | nil =>
        have hx : x.step c svc secure peer (.str ven) (.answerLost t) = x := by
          simp [Reporting.step, Delivery.unanswered, Delivery.turn, Sender.turn, hq, hw]
        rw [hx] at hrest ⊢
        obtain ⟨h1, done, kept, calls, h2, h3, h4⟩ := ih x hw hcb hrest hall hp
        rw [hq] at h3
        exact ⟨h1, done, kept, calls, h2, h3, fun hn => h4 (fun hm => hn (by simp [hm]))⟩
      | cons o rest =>
        obtain ⟨hlib, hready⟩ := hr t (.inr rfl) o rest hq
        rw [hq] at hall
        have hs := hall o (by simp)
        subst hlib
        have hx := delivery_turn hsvc hready hs (fun call e he => by rw [hu] at he; cases he) hw hq
        have hx' : x.step c svc secure peer (.str ven) (.answerLost t) = { x with delivery := x.delivery.unanswered c svc secure peer (.str ven) t } := rfl
        rw [hx', Delivery.unanswered, hx, turn_goes_on _ o rest hw hq (.inl rfl)] at hrest ⊢
        obtain ⟨h1, done, kept, calls, h2, h3, h4⟩ := ih _ (by exact hw) (by exact hcb) hrest (fun o ho => hall o (by
          simp only [List.cons_append, List.mem_cons]; exact .inr ho)) (by exact hp)
        refine ⟨h1, o :: done, o :: kept, _, by rw [h2]; simp only [List.append_assoc]; rfl, h3.handed (now := _) ?_, fun hn => ?_⟩
        · rw [huser]; exact callsFor_arrived hcb t.created hs
        · rw [h4 (fun hm => hn (by simp [hm]))]

/-! ### Every value once -/

/-- The situation: a request for incremental data points of which `n` samples make a report, none taken yet; callbacks that answer with one value each; ids and times
    that can be written; what is queued for other requests can be sent as well. -/
structure Reports (lib : Lib) (s : VenReports) (q : String) (rids : List Value) (callback : Value → Value) (n : Nat) (ticks : List Tick) : Prop where
  points : rids ≠ [] ∧ rids.Nodup
  request : ∃ b g rq report, Incremental s (.str q) rids callback b g rq report ∧ 0 < g ∧ n * g ≤ b ∧ b < (n + 1) * g ∧ Ordinary lib report.specifierId ∧
    Ordinary lib (outName report.name)
  several : 2 ≤ n
  keyed : Keyed s
  idle : getIncomplete s.incomplete (.str q) = none ∧ s.pending = []
  numbers : ∀ t ∈ ticks, t.request = .str q → ∀ r ∈ rids, OneSample (t.user ⟨callback r, r, .now⟩) ∧
    AsFloat lib (numberOf (t.user ⟨callback r, r, .now⟩)) (floatOf lib (numberOf (t.user ⟨callback r, r, .now⟩)))
  times : ∀ t ∈ ticks, t.request = .str q → ∀ r ∈ rids, Datable (timeOf t.now (t.user ⟨callback r, r, .now⟩))
  ids : Ordinary lib q ∧ ∀ r ∈ rids, ∃ x, r = .str x ∧ Ordinary lib x
  others : ∀ o ∈ (runTicks (.str q) s ticks).1.pending, o.requestId ≠ .str q → o.Sendable lib

/-- What the callback of the VEN for a data point answered in the updates of a request, as floats with the times: of as many updates as there are in complete
    reports of `n`. -/
def answered (lib : Lib) (q : String) (callback : Value → Value) (n : Nat) (r : Value) (ticks : List Tick) : List (Value × Value) :=
  let mine := ticks.filter (fun t => decide (t.request = .str q))
  (mine.take (mine.length / n * n)).map (fun t => (.datetime (timeOf t.now (t.user ⟨callback r, r, .now⟩)), .float (floatOf lib (numberOf (t.user ⟨callback r, r, .now⟩)))))

/-- The values of a data point that wait in the queue. -/
def waiting (lib : Lib) (q : String) (r : Value) (queue : List OutReport) : List (Value × Value) :=
  (queue.filter (fun o => decide (o.requestId = .str q))).flatMap (fun o => o.samples lib r)

theorem waiting_sublist {lib : Lib} {q : String} {r : Value} {a b : List OutReport} (h : a.Sublist b) : (waiting lib q r a).Sublist (waiting lib q r b) := by
  have : ∀ {a b : List OutReport}, a.Sublist b → (a.flatMap (fun o => o.samples lib r)).Sublist (b.flatMap (fun o => o.samples lib r)) := by
    intro a b h
    induction h with
    | slnil => exact .slnil
    | cons o _ ih => exact ih.trans (List.sublist_append_right _ _)
    | cons_cons o _ ih => exact (List.Sublist.refl _).append ih
  exact this (h.filter _)

theorem Reports.own {lib : Lib} {s : VenReports} {q : String} {rids : List Value} {callback : Value → Value} {n : Nat} {ticks : List Tick}
    (h : Reports lib s q rids callback n ticks) :
    (∀ o ∈ (runTicks (.str q) s ticks).1.pending, o.Sendable lib) ∧
    (∀ o ∈ (runTicks (.str q) s ticks).1.pending, o.requestId = .str q → ∀ r ∈ rids, (o.samples lib r).length = n) ∧
    ∀ r ∈ rids, waiting lib q r (runTicks (.str q) s ticks).1.pending = answered lib q callback n r ticks := by
  obtain ⟨b, g, rq, report, hi, hg, h1, h2, hspec, hname⟩ := h.request
  obtain ⟨e1, e2⟩ := own_reports s q rids h.points.1 h.points.2 callback b g n rq report hi hg h.several h1 h2 h.keyed h.idle.1 h.idle.2 ticks h.numbers h.times
    h.ids.1 hspec hname h.ids.2
  refine ⟨fun o ho => ?_, fun o ho hq => (e1 o ho hq).2, e2⟩
  by_cases hq : o.requestId = .str q
  · exact (e1 o ho hq).1
  · exact h.others o ho hq

/-- **C109**: reports are updated, for any requests, while the worker sends others to the VTN, in any order; answers of the VTN may be lost. What the callback of
    the VTN has been handed, and what waits in the queue after that, is exactly what the callback of the VEN answered, in order, each value once. If reports
    themselves are lost, values are missing, but none comes twice or in another order. The worker goes on. -/
theorem c109_each_value_once {lib : Lib} {c : Config} {user : ReportCall → Res Unit} {svc : Service ReportVtn} (hsvc : svc.Updates user) {secure : Bool}
    {peer : Option String} {ven : String} (hu : ∀ call, user call = .ok ()) {q : String} {rids : List Value} {callback : Value → Value} {n : Nat}
    (x : Reporting) (hw : x.delivery.worker.running = true) (hqueue : x.delivery.worker.queue = []) (steps : List ReportStep)
    (h : Reports lib x.ven q rids callback n (ReportStep.ticks steps)) (hready : AllReady lib c svc secure peer ven x steps)
    (r cb : Value) (hr : r ∈ rids) (hcb : getCallback x.delivery.vtn.1.callbacks (.str q, r) = some cb) :
    let y := x.run c svc secure peer (.str ven) steps
    y.delivery.worker.running = true ∧
    ∃ calls, y.delivery.vtn = (x.delivery.vtn.1, x.delivery.vtn.2 ++ calls) ∧
      (deliveredTo calls (.str q) r ++ waiting lib q r y.delivery.worker.queue).Sublist (answered lib q callback n r (ReportStep.ticks steps)) ∧
      (ReportStep.lost ∉ steps → deliveredTo calls (.str q) r ++ waiting lib q r y.delivery.worker.queue = answered lib q callback n r (ReportStep.ticks steps)) ∧
      ∀ call ∈ calls, ∃ q r cb vs, call = .deliver q r cb vs ∧ vs ≠ [] ∧ getCallback x.delivery.vtn.1.callbacks (q, r) = some cb := by
  have hne : x.delivery.vtn.1.callbacks ≠ [] := by
    intro h
    rw [h] at hcb
    simp [getCallback] at hcb
  obtain ⟨e1, -, e3⟩ := h.own
  have hven : ({ x.ven with pending := [] } : VenReports) = x.ven := by rw [← h.idle.2]
  obtain ⟨h1, done, kept, calls, h2, h3, h4⟩ := reporting_kept (lib := lib) (c := c) (secure := secure) (peer := peer) (ven := ven) hsvc hu (.str q) steps x hw hne hready
    (by rw [hqueue, hven]; exact e1) h.idle.2
  rw [hqueue, hven, List.nil_append] at h3
  have hval : deliveredTo calls (.str q) r = waiting lib q r kept := by rw [h3.values, if_neg (by rw [hcb]; simp)]; rfl
  have happ : ∀ a b, waiting lib q r (a ++ b) = waiting lib q r a ++ waiting lib q r b := by intro a b; simp [waiting]
  intro y
  refine ⟨h1, calls, h2, ?_, fun hn => ?_, h3.each⟩
  · rw [hval, ← e3 r hr, ← h3.order, happ]
    exact List.Sublist.append_right (waiting_sublist h3.among) _
  · rw [hval, ← e3 r hr, ← h3.order, happ, h4 hn]

/-- **C109, refuted** for a report that cannot be sent at once: the worker has taken it from the queue, and does not send it again. Whatever happens before and
    afterwards, its `n` values of every data point are neither handed to the callback of the VTN nor in the queue. -/
theorem c109_lost_violated {lib : Lib} {c : Config} {user : ReportCall → Res Unit} {svc : Service ReportVtn} (hsvc : svc.Updates user) {secure : Bool}
    {peer : Option String} {ven : String} (hu : ∀ call, user call = .ok ()) {q : String} {rids : List Value} {callback : Value → Value} {n : Nat}
    (x : Reporting) (hw : x.delivery.worker.running = true) (hqueue : x.delivery.worker.queue = []) (before after : List ReportStep)
    (h : Reports lib x.ven q rids callback n (ReportStep.ticks (before ++ .lost :: after)))
    (hready : AllReady lib c svc secure peer ven x (before ++ .lost :: after))
    (r cb : Value) (hr : r ∈ rids) (hcb : getCallback x.delivery.vtn.1.callbacks (.str q, r) = some cb) (o : OutReport) (rest : List OutReport)
    (hfront : (x.run c svc secure peer (.str ven) before).delivery.worker.queue = o :: rest) (hoq : o.requestId = .str q) :
    let y := x.run c svc secure peer (.str ven) (before ++ .lost :: after)
    ∃ calls earlier gone later, y.delivery.vtn = (x.delivery.vtn.1, x.delivery.vtn.2 ++ calls) ∧ gone.length = n ∧
      answered lib q callback n r (ReportStep.ticks (before ++ .lost :: after)) = earlier ++ gone ++ later ∧
      (deliveredTo calls (.str q) r ++ waiting lib q r y.delivery.worker.queue).Sublist (earlier ++ later) := by
  have hne : x.delivery.vtn.1.callbacks ≠ [] := by
    intro h
    rw [h] at hcb
    simp [getCallback] at hcb
  obtain ⟨e1, e2, e3⟩ := h.own
  have hven : ({ x.ven with pending := [] } : VenReports) = x.ven := by rw [← h.idle.2]
  obtain ⟨r1, r2⟩ := allReady_append before (.lost :: after) x hready
  -- the reports of both parts
  have hpend : (runTicks (.str q) x.ven (ReportStep.ticks (before ++ .lost :: after))).1.pending =
      (runTicks (.str q) x.ven (ReportStep.ticks before)).1.pending ++
        (runTicks (.str q) { (x.run c svc secure peer (.str ven) before).ven with pending := [] } (ReportStep.ticks after)).1.pending := by
    rw [ticks_append, runTicks_append, reporting_ven c svc secure peer (.str ven) (.str q) before x h.idle.2]
    have := runTicks_queue (.str q) (ReportStep.ticks after) (runTicks (.str q) x.ven (ReportStep.ticks before)).1
      (runTicks (.str q) x.ven (ReportStep.ticks before)).1.pending
    rw [show ({ (runTicks (.str q) x.ven (ReportStep.ticks before)).1 with pending := (runTicks (.str q) x.ven (ReportStep.ticks before)).1.pending } : VenReports) =
      (runTicks (.str q) x.ven (ReportStep.ticks before)).1 from rfl] at this
    rw [show ReportStep.ticks (.lost :: after) = ReportStep.ticks after from rfl, this]
  rw [hpend] at e1 e2
  obtain ⟨h1, done, kept, calls, h2, h3, -⟩ := reporting_kept (lib := lib) (c := c) (secure := secure) (peer := peer) (ven := ven) hsvc hu (.str q) before x hw hne r1
    (by rw [hqueue, hven]; exact fun o ho => e1 o (List.mem_append_left _ ho)) h.idle.2
  rw [hqueue, hven, List.nil_append, hfront] at h3
  have hvp : (x.run c svc secure peer (.str ven) before).ven.pending = [] := by rw [reporting_ven c svc secure peer (.str ven) (.str q) before x h.idle.2]
  obtain ⟨z, hz, z1, z2, z3, z4⟩ : ∃ z, (x.run c svc secure peer (.str ven) before).step c svc secure peer (.str ven) .lost = z ∧
      z.ven = (x.run c svc secure peer (.str ven) before).ven ∧ z.delivery.worker.running = true ∧ z.delivery.worker.queue = rest ∧
      z.delivery.vtn = (x.delivery.vtn.1, x.delivery.vtn.2 ++ calls) := by
    refine ⟨_, rfl, ?_⟩
    rw [Reporting.step, turn_goes_on _ o rest h1 hfront (.inl rfl)]
    exact ⟨rfl, h1, rfl, h2⟩
  have hrun : x.run c svc secure peer (.str ven) (before ++ .lost :: after) = z.run c svc secure peer (.str ven) after := by
    rw [reporting_append, ← hz]; rfl
  have r3 := r2.2
  rw [hz] at r3
  obtain ⟨-, done', kept', calls', k2, k3, -⟩ := reporting_kept (lib := lib) (c := c) (secure := secure) (peer := peer) (ven := ven) hsvc hu (.str q) after z z2
    (by rw [z4]; exact hne) r3 (by
      intro o' ho'
      refine e1 o' ?_
      rw [← h3.order]
      rw [z1, z3] at ho'
      simp only [List.mem_append] at ho' ⊢
      rcases ho' with ho' | ho'
      · exact .inl (.inr (by simp [ho']))
      · exact .inr ho') (by rw [z1]; exact hvp)
  rw [z4] at k2 k3
  rw [z1, z3] at k3
  have happ : ∀ a b, waiting lib q r (a ++ b) = waiting lib q r a ++ waiting lib q r b := by intro a b; simp [waiting]
  intro y
  refine ⟨calls ++ calls', waiting lib q r done, waiting lib q r [o], waiting lib q r done' ++ waiting lib q r y.delivery.worker.queue, ?_, ?_, ?_, ?_⟩
  · simp only [y]; rw [hrun, k2, List.append_assoc]
  · have := e2 o (by rw [← h3.order]; simp) hoq r hr
    simpa [waiting, hoq] using this
  · rw [← e3 r hr, hpend, ← h3.order]
    have ho := k3.order
    rw [← hrun] at ho
    rw [← happ done', ho, ← happ, ← happ]
    simp
  · rw [deliveredTo_append, h3.values, k3.values, if_neg (by rw [hcb]; simp), if_neg (by rw [hcb]; simp), List.append_assoc]
    exact (waiting_sublist h3.among).append ((waiting_sublist k3.among).append (List.Sublist.refl _))

/-! ### Callbacks that take their time -/

/-- The beginnings and ends of updates in a history. -/
def WaitingStep.samples : List WaitingStep → List SampleStep
  | [] => []
  | .sample s :: steps => s :: WaitingStep.samples steps
  | _ :: steps => WaitingStep.samples steps

/-- The history in which every update takes place when it ends. `waiting` are the requests for which one has begun. -/
def atOnce : List Value → List WaitingStep → List ReportStep
  | _, [] => []
  | waiting, .sample (.begins q) :: steps => atOnce (q :: waiting) steps
  | waiting, .sample (.ends q user now) :: steps =>
    if q ∈ waiting then .update user now q :: atOnce (waiting.filter (fun k => decide (k ≠ q))) steps
    else atOnce (waiting.filter (fun k => decide (k ≠ q))) steps
  | waiting, .turn t :: steps => .turn t :: atOnce waiting steps
  | waiting, .answerLost t :: steps => .answerLost t :: atOnce waiting steps
  | waiting, .lost :: steps => .lost :: atOnce waiting steps

theorem samplingInv_queue {waiting : List Value} {x : Sampling} (h : SamplingInv waiting x) (p : List OutReport) (calls : List SampleCall) :
    SamplingInv waiting ⟨{ x.reports with pending := p }, x.runs, calls⟩ :=
  ⟨fun r hr => h.current r hr, h.single, h.named, fun q hq => h.all q hq⟩

theorem waiting_at_once (c : Config) (svc : Service ReportVtn) (secure : Bool) (peer : Option String) (ven : Value) (steps : List WaitingStep) :
    ∀ (waiting : List Value) (x : Waiting), x.reporting.ven.pending = [] → SamplingInv waiting ⟨x.reporting.ven, x.runs, []⟩ →
      NoOverlap waiting (WaitingStep.samples steps) →
      (x.run c svc secure peer ven steps).reporting = x.reporting.run c svc secure peer ven (atOnce waiting steps) := by
  induction steps with
  | nil => intro waiting x _ _ _; rfl
  | cons s steps ih =>
    intro waiting x hp inv hno
    rw [Waiting.run]
    cases s with
    | turn t => exact ih waiting (x.step c svc secure peer ven (.turn t)) hp inv hno
    | answerLost t => exact ih waiting (x.step c svc secure peer ven (.answerLost t)) hp inv hno
    | lost => exact ih waiting (x.step c svc secure peer ven .lost) hp inv hno
    | sample s =>
      cases s with
      | begins q =>
        obtain ⟨hq, hno⟩ := hno
        obtain ⟨i1, i2, -⟩ := samplingInv_begins inv hq
        have hx : (x.step c svc secure peer ven (.sample (.begins q))).reporting = x.reporting := by
          simp only [Waiting.step, i2, hp, List.append_nil]
          rw [← hp]
        have := ih (q :: waiting) (x.step c svc secure peer ven (.sample (.begins q))) rfl (samplingInv_queue i1 [] []) hno
        rw [this, hx]
        rfl
      | ends q user now =>
        obtain ⟨i1, i2⟩ := samplingInv_ends inv q user now
        have hrest := ih _ (x.step c svc secure peer ven (.sample (.ends q user now))) rfl (samplingInv_queue i1 [] []) hno
        rw [hrest, atOnce]
        by_cases hq : q ∈ waiting
        · rw [if_pos hq] at i2 ⊢
          have i3 := congrArg Prod.fst i2
          simp only [] at i3
          simp only [Waiting.step, i3, Reporting.run, Reporting.step, Reporting.update]
        · rw [if_neg hq] at i2 ⊢
          have i3 := congrArg Prod.fst i2
          simp only [] at i3
          have hx : (x.step c svc secure peer ven (.sample (.ends q user now))).reporting = x.reporting := by
            simp only [Waiting.step, i3, hp, List.append_nil]
            rw [← hp]
          rw [hx]

/-- **C109** for callbacks that are coroutines: updates of different requests wait for their values side by side, and the worker has its turns meanwhile. The same
    holds, with the updates in the order in which they end. (That updates of one request do not overlap is what the scheduler sees to.) -/
theorem c109_while_waiting {lib : Lib} {c : Config} {user : ReportCall → Res Unit} {svc : Service ReportVtn} (hsvc : svc.Updates user) {secure : Bool}
    {peer : Option String} {ven : String} (hu : ∀ call, user call = .ok ()) {q : String} {rids : List Value} {callback : Value → Value} {n : Nat}
    (x : Reporting) (hw : x.delivery.worker.running = true) (hqueue : x.delivery.worker.queue = []) (steps : List WaitingStep)
    (hno : NoOverlap [] (WaitingStep.samples steps))
    (h : Reports lib x.ven q rids callback n (ReportStep.ticks (atOnce [] steps))) (hready : AllReady lib c svc secure peer ven x (atOnce [] steps))
    (r cb : Value) (hr : r ∈ rids) (hcb : getCallback x.delivery.vtn.1.callbacks (.str q, r) = some cb) :
    let y := (Waiting.run c svc secure peer (.str ven) ⟨x, []⟩ steps).reporting
    y.delivery.worker.running = true ∧
    ∃ calls, y.delivery.vtn = (x.delivery.vtn.1, x.delivery.vtn.2 ++ calls) ∧
      (deliveredTo calls (.str q) r ++ waiting lib q r y.delivery.worker.queue).Sublist (answered lib q callback n r (ReportStep.ticks (atOnce [] steps))) ∧
      (WaitingStep.lost ∉ steps → deliveredTo calls (.str q) r ++ waiting lib q r y.delivery.worker.queue =
        answered lib q callback n r (ReportStep.ticks (atOnce [] steps))) ∧
      ∀ call ∈ calls, ∃ q r cb vs, call = .deliver q r cb vs ∧ vs ≠ [] ∧ getCallback x.delivery.vtn.1.callbacks (q, r) = some cb := by
  have hlost : ∀ (l : List WaitingStep) (w : List Value), WaitingStep.lost ∉ l → ReportStep.lost ∉ atOnce w l := by
    intro l
    induction l with
    | nil => intro w _; simp [atOnce]
    | cons s l ih =>
      intro w hn
      have hl : WaitingStep.lost ∉ l := fun hm => hn (List.mem_cons_of_mem _ hm)
      cases s with
      | lost => exact absurd (by simp) hn
      | turn t => simpa [atOnce] using ih w hl
      | answerLost t => simpa [atOnce] using ih w hl
      | sample s =>
        cases s with
        | begins q => exact ih _ hl
        | ends q user now =>
          simp only [atOnce]
          split
          · simpa using ih _ hl
          · exact ih _ hl
  intro y
  have hy : y = x.run c svc secure peer (.str ven) (atOnce [] steps) := by
    refine waiting_at_once c svc secure peer (.str ven) steps [] ⟨x, []⟩ h.idle.2 ⟨?_, ?_, ?_, ?_⟩ hno
    · simp
    · simp
    · simp
    · simp
  obtain ⟨h1, calls, h2, h3, h4, h5⟩ := c109_each_value_once hsvc hu x hw hqueue (atOnce [] steps) h hready r cb hr hcb
  rw [hy]
  exact ⟨h1, calls, h2, h3, fun hn => h4 (hlost steps [] hn), h5⟩

/-! ### Concrete cases -/

/-- If every turn would do for every report of the history, all are ready. -/
theorem allReady_of {lib : Lib} {c : Config} {user : ReportCall → Res Unit} {svc : Service ReportVtn} (hsvc : svc.Updates user) {secure : Bool}
    {peer : Option String} {ven : String} (hu : ∀ call, user call = .ok ()) (q : Value) (cache : NonceCache) (steps : List ReportStep) : ∀ (x : Reporting),
    x.delivery.worker.running = true → x.delivery.cache = cache → x.ven.pending = [] →
    (∀ o ∈ x.delivery.worker.queue ++ (runTicks q x.ven (ReportStep.ticks steps)).1.pending, o.Sendable lib) →
    (∀ t, ReportStep.turn t ∈ steps ∨ ReportStep.answerLost t ∈ steps → t.link.lib = lib ∧
      ∀ o ∈ x.delivery.worker.queue ++ (runTicks q x.ven (ReportStep.ticks steps)).1.pending, t.Ready c secure peer cache ven o) →
    AllReady lib c svc secure peer ven x steps := by
  induction steps with
  | nil => intros; trivial
  | cons s steps ih =>
    intro x hw hc hp hall hready
    refine ⟨fun t ht o rest hq => ?_, ?_⟩
    · obtain ⟨h1, h2⟩ := hready t (by rcases ht with rfl | rfl <;> simp)
      rw [hc]
      exact ⟨h1, h2 o (by rw [hq]; simp)⟩
    · cases s with
      | update us now request =>
        simp only [ReportStep.ticks, runTicks_step, ← List.append_assoc] at hall hready
        exact ih (x.update us now request) hw hc rfl hall (fun t ht => hready t (by
          rcases ht with ht | ht
          · exact .inl (List.mem_cons_of_mem _ ht)
          · exact .inr (List.mem_cons_of_mem _ ht)))
      | lost =>
        cases hq : x.delivery.worker.queue with
        | nil =>
          have hx : x.step c svc secure peer (.str ven) .lost = x := by simp [Reporting.step, Sender.turn, hq]
          rw [hx]
          exact ih x hw hc hp hall (fun t ht => hready t (by
            rcases ht with ht | ht
            · exact .inl (List.mem_cons_of_mem _ ht)
            · exact .inr (List.mem_cons_of_mem _ ht)))
        | cons o rest =>
          rw [Reporting.step, turn_goes_on _ o rest hw hq (.inl rfl)]
          rw [hq] at hall hready
          exact ih _ (by exact hw) (by exact hc) (by exact hp) (fun o ho => hall o (List.mem_cons_of_mem _ ho)) (fun t ht => (hready t (by
            rcases ht with ht | ht
            · exact .inl (List.mem_cons_of_mem _ ht)
            · exact .inr (List.mem_cons_of_mem _ ht))).imp_right (fun h o ho => h o (List.mem_cons_of_mem _ ho)))
      | turn t =>
        cases hq : x.delivery.worker.queue with
        | nil =>
          have hx : x.step c svc secure peer (.str ven) (.turn t) = x := by simp [Reporting.step, Delivery.turn, hq, hw]
          rw [hx]
          exact ih x hw hc hp hall (fun t ht => hready t (by
            rcases ht with ht | ht
            · exact .inl (List.mem_cons_of_mem _ ht)
            · exact .inr (List.mem_cons_of_mem _ ht)))
        | cons o rest =>
          rw [hq] at hall hready
          obtain ⟨hlib, hr⟩ := hready t (by simp)
          subst hlib
          rw [Reporting.step, delivery_turn hsvc (by rw [hc]; exact hr o (by simp)) (hall o (by simp)) (fun call e he => by rw [hu] at he; cases he) hw hq]
          exact ih _ (by exact hw) (by exact hc) (by exact hp) (fun o ho => hall o (List.mem_cons_of_mem _ ho)) (fun t ht => (hready t (by
            rcases ht with ht | ht
            · exact .inl (List.mem_cons_of_mem _ ht)
            · exact .inr (List.mem_cons_of_mem _ ht))).imp_right (fun h o ho => h o (List.mem_cons_of_mem _ ho)))
      | answerLost t =>
        cases hq : x.delivery.worker.queue with
        | nil =>
          have hx : x.step c svc secure peer (.str ven) (.answerLost t) = x := by simp [Reporting.step, Delivery.unanswered, Delivery.turn, Sender.turn, hq, hw]
          rw [hx]
          exact ih x hw hc hp hall (fun t ht => hready t (by
            rcases ht with ht | ht
            · exact .inl (List.mem_cons_of_mem _ ht)
            · exact .inr (List.mem_cons_of_mem _ ht)))
        | cons o rest =>
          rw [hq] at hall hready
          obtain ⟨hlib, hr⟩ := hready t (by simp)
          subst hlib
          rw [Reporting.step, Delivery.unanswered, delivery_turn hsvc (by rw [hc]; exact hr o (by simp)) (hall o (by simp))
            (fun call e he => by rw [hu] at he; cases he) hw hq, turn_goes_on _ o rest hw hq (.inl rfl)]
          exact ih _ (by exact hw) (by exact hc) (by exact hp) (fun o ho => hall o (List.mem_cons_of_mem _ ho)) (fun t ht => (hready t (by
            rcases ht with ht | ht
            · exact .inl (List.mem_cons_of_mem _ ht)
            · exact .inr (List.mem_cons_of_mem _ ht))).imp_right (fun h o ho => h o (List.mem_cons_of_mem _ ho)))

/-- The `i`th update of the request "q", with callbacks that answer with the time. -/
def clockStep (i : Nat) : ReportStep := .update (fun _ => .number (.int i)) i (.str "q")

/-- The situation of the theorems, for a request as the VTN makes it and seven updates. -/
theorem clock_reports : Reports plainLib (asked 30 10 ["a", "b"]) "q" [.str "a", .str "b"] (fun _ => .func 1) 3 (clock 7) := by
  have hticks : ∀ t ∈ clock 7, ∃ i : Nat, i < 7 ∧ t = ⟨.str "q", fun _ => .number (.int i), i⟩ := by
    intro t ht
    simp only [clock, List.mem_map, List.mem_range] at ht
    obtain ⟨i, hi, rfl⟩ := ht
    exact ⟨i, hi, rfl⟩
  have hown : (runTicks (.str "q") (asked 30 10 ["a", "b"]) (clock 7)).1.pending.all (fun o => decide (o.requestId = .str "q")) = true := by decide +kernel
  have hlater : ∀ i : Nat, i < 7 → Datable (i : Int) := by
    intro i hi
    exact datable_of (by revert i; decide +kernel)
  have hvals : ∀ i : Nat, i < 7 → AsFloat plainLib (.int i) (floatOf plainLib (.int i)) := by
    intro i hi
    have : ∀ i : Nat, i < 7 → (plainLib.readFloat (String.ofList (intText (i : Int)))).isSome = true := by decide +kernel
    obtain ⟨r, hr⟩ := Option.isSome_iff_exists.mp (this i hi)
    refine asFloat_plain _ _ ?_
    rw [floatOf, hr]; rfl
  refine ⟨⟨by simp, by decide⟩, ⟨seconds 30, seconds 10, ⟨.str "q", .str "s", some (seconds 30), 0, some (seconds 10), some 0⟩, offerS, ?_, ?_, ?_, ?_, ?_, ?_⟩,
    by decide, ?_, ⟨by decide +kernel, by decide +kernel⟩, ?_, ?_, ⟨ordinary_of (by decide +kernel), ?_⟩, ?_⟩
  · refine ⟨?_, ?_, ?_, ?_, ?_, ?_, ?_⟩ <;> decide +kernel
  · decide +kernel
  · decide +kernel
  · decide +kernel
  · exact ordinary_of (by decide +kernel)
  · exact ordinary_of (by decide +kernel)
  · have : (asked 30 10 ["a", "b"]).incomplete = [] := by decide +kernel
    intro k o h
    rw [this] at h
    cases h
  · intro t ht _ r _
    obtain ⟨i, hi, rfl⟩ := hticks t ht
    exact ⟨.inl ⟨_, rfl⟩, hvals i hi⟩
  · intro t ht _ r _
    obtain ⟨i, hi, rfl⟩ := hticks t ht
    exact hlater i hi
  · intro r hr
    simp only [List.mem_cons, List.not_mem_nil, or_false] at hr
    rcases hr with rfl | rfl
    · exact ⟨_, rfl, ordinary_of (by decide +kernel)⟩
    · exact ⟨_, rfl, ordinary_of (by decide +kernel)⟩
  · exact fun o ho hne => absurd (by simpa using List.all_eq_true.mp hown o ho) hne

/-- The VEN with nothing to send, and a VTN with a callback for the data point "b". -/
def startReporting : Reporting :=
  ⟨asked 30 10 ["a", "b"], ⟨⟨true, [], [], []⟩, [],
    ({ callbacks := [((.str "q", .str "b"), .func 2)], requested := [], created := [], registered := [], ids := 0 }, [])⟩⟩

/-- Three updates make a report, which is sent while a second one is being filled; the answer to the second one is lost. -/
def mixedSteps : List ReportStep :=
  [clockStep 0, clockStep 1, clockStep 2, clockStep 3, .turn sampleTurn, clockStep 4, .turn sampleTurn, clockStep 5, .answerLost sampleTurn, clockStep 6]
/-- The first report is lost. -/
def lossySteps : List ReportStep :=
  [clockStep 0, clockStep 1, clockStep 2] ++ .lost :: [clockStep 3, clockStep 4, clockStep 5, .turn sampleTurn, clockStep 6]

theorem sample_ready (steps : List ReportStep) (ht : ReportStep.ticks steps = clock 7)
    (h : ∀ t, ReportStep.turn t ∈ steps ∨ ReportStep.answerLost t ∈ steps → t = sampleTurn) :
    AllReady plainLib sampleVtn (updateService (fun _ => .ok ())) false none "ven1" startReporting steps := by
  refine allReady_of (user := fun _ => .ok ()) (updateService_updates _) (fun _ => rfl) (.str "q") [] steps startReporting rfl rfl (by decide +kernel) ?_ ?_
  · rw [ht]; exact clock_reports.own.1
  · intro t htm
    rw [h t htm]
    exact ⟨rfl, fun o _ => sampleTurn_ready o⟩

/-- Each of the six values of the complete reports is handed over or waits, once and in order. -/
example : ∃ calls, (startReporting.run sampleVtn (updateService (fun _ => .ok ())) false none (.str "ven1") mixedSteps).delivery.vtn.2 = calls ∧
    deliveredTo calls (.str "q") (.str "b") ++ waiting plainLib "q" (.str "b")
        (startReporting.run sampleVtn (updateService (fun _ => .ok ())) false none (.str "ven1") mixedSteps).delivery.worker.queue =
      [(.datetime 0, .float "0.0"), (.datetime 1, .float "1.0"), (.datetime 2, .float "2.0"), (.datetime 3, .float "3.0"), (.datetime 4, .float "4.0"),
        (.datetime 5, .float "5.0")] := by
  have ht : ReportStep.ticks mixedSteps = clock 7 := rfl
  obtain ⟨-, calls, h1, -, h3, -⟩ := c109_each_value_once (lib := plainLib) (c := sampleVtn) (user := fun _ => .ok ()) (secure := false) (peer := none) (ven := "ven1")
    (updateService_updates _) (fun _ => rfl) (q := "q") (rids := [.str "a", .str "b"]) (callback := fun _ => .func 1) (n := 3) startReporting rfl rfl mixedSteps
    (by rw [ht]; exact clock_reports) (sample_ready _ ht (by intro t ht; simp [mixedSteps, clockStep] at ht; exact ht)) (.str "b") (.func 2) (by simp) (by decide +kernel)
  refine ⟨calls, by rw [h1]; rfl, ?_⟩
  rw [h3 (by simp [mixedSteps, clockStep]), ht]
  decide +kernel

/-- The three values of the report that was lost are gone. -/
example : ∃ calls, (startReporting.run sampleVtn (updateService (fun _ => .ok ())) false none (.str "ven1") lossySteps).delivery.vtn.2 = calls ∧
    (deliveredTo calls (.str "q") (.str "b") ++ waiting plainLib "q" (.str "b")
        (startReporting.run sampleVtn (updateService (fun _ => .ok ())) false none (.str "ven1") lossySteps).delivery.worker.queue).length ≤ 3 := by
  have ht : ReportStep.ticks lossySteps = clock 7 := rfl
  have hlen : (startReporting.run sampleVtn (updateService (fun _ => .ok ())) false none (.str "ven1") [clockStep 0, clockStep 1, clockStep 2]).delivery.worker.queue.map
      OutReport.requestId = [.str "q"] := by decide +kernel
  obtain ⟨o, hq, hoq⟩ : ∃ o, (startReporting.run sampleVtn (updateService (fun _ => .ok ())) false none (.str "ven1")
      [clockStep 0, clockStep 1, clockStep 2]).delivery.worker.queue = [o] ∧ o.requestId = .str "q" := by
    revert hlen
    generalize (startReporting.run sampleVtn (updateService (fun _ => .ok ())) false none (.str "ven1") [clockStep 0, clockStep 1, clockStep 2]).delivery.worker.queue = l
    intro hlen
    rcases l with _ | ⟨o, _ | ⟨o', l⟩⟩
    · simp at hlen
    · exact ⟨o, rfl, by simpa using hlen⟩
    · simp at hlen
  obtain ⟨calls, earlier, gone, later, h1, h2, h3, h4⟩ := c109_lost_violated (lib := plainLib) (c := sampleVtn) (user := fun _ => .ok ()) (secure := false) (peer := none)
    (ven := "ven1") (updateService_updates _) (fun _ => rfl) (q := "q") (rids := [.str "a", .str "b"]) (callback := fun _ => .func 1) (n := 3) startReporting rfl rfl
    [clockStep 0, clockStep 1, clockStep 2] [clockStep 3, clockStep 4, clockStep 5, .turn sampleTurn, clockStep 6]
    (by rw [show _ ++ _ = lossySteps from rfl, ht]; exact clock_reports) (sample_ready lossySteps ht (by intro t ht; simp [lossySteps, clockStep] at ht; exact ht))
    (.str "b") (.func 2) (by simp) (by decide +kernel) o [] hq hoq
  refine ⟨calls, by rw [lossySteps, h1]; rfl, ?_⟩
  have hall : (answered plainLib "q" (fun _ => .func 1) 3 (.str "b") (clock 7)).length = 6 := by decide +kernel
  rw [show [clockStep 0, clockStep 1, clockStep 2] ++ ReportStep.lost :: [clockStep 3, clockStep 4, clockStep 5, .turn sampleTurn, clockStep 6] = lossySteps from rfl,
    ht] at h3
  rw [h3] at hall
  have := h4.length_le
  simp only [List.length_append] at hall this ⊢
  simp only [lossySteps]
  omega

/-- The same updates, with callbacks that take their time: the turns of the worker are taken while the fourth and the fifth one wait, and an update of a request that
    is not known begins meanwhile. -/
def waitingSteps : List WaitingStep :=
  let b : WaitingStep := .sample (.begins (.str "q"))
  let e (i : Nat) : WaitingStep := .sample (.ends (.str "q") (fun _ => .number (.int i)) i)
  [b, e 0, b, e 1, b, e 2, b, .sample (.begins (.str "z")), e 3, b, .turn sampleTurn, e 4, b, .turn sampleTurn, e 5, b, .answerLost sampleTurn, e 6]

theorem waitingSteps_atOnce : atOnce [] waitingSteps = mixedSteps := by
  have : Value.str "z" ≠ Value.str "q" := by simp
  simp [waitingSteps, mixedSteps, atOnce, clockStep, this]

example : ∃ calls, (Waiting.run sampleVtn (updateService (fun _ => .ok ())) false none (.str "ven1") ⟨startReporting, []⟩ waitingSteps).reporting.delivery.vtn.2 = calls ∧
    deliveredTo calls (.str "q") (.str "b") ++ waiting plainLib "q" (.str "b")
        (Waiting.run sampleVtn (updateService (fun _ => .ok ())) false none (.str "ven1") ⟨startReporting, []⟩ waitingSteps).reporting.delivery.worker.queue =
      [(.datetime 0, .float "0.0"), (.datetime 1, .float "1.0"), (.datetime 2, .float "2.0"), (.datetime 3, .float "3.0"), (.datetime 4, .float "4.0"),
        (.datetime 5, .float "5.0")] := by
  have ht : ReportStep.ticks mixedSteps = clock 7 := rfl
  obtain ⟨-, calls, h1, -, h3, -⟩ := c109_while_waiting (lib := plainLib) (c := sampleVtn) (user := fun _ => .ok ()) (secure := false) (peer := none) (ven := "ven1")
    (updateService_updates _) (fun _ => rfl) (q := "q") (rids := [.str "a", .str "b"]) (callback := fun _ => .func 1) (n := 3) startReporting rfl rfl waitingSteps
    (by simp [waitingSteps, WaitingStep.samples, NoOverlap])
    (by rw [waitingSteps_atOnce, ht]; exact clock_reports)
    (by rw [waitingSteps_atOnce]; exact sample_ready _ ht (by intro t ht; simp [mixedSteps, clockStep] at ht; exact ht)) (.str "b") (.func 2) (by simp) (by decide +kernel)
  refine ⟨calls, by rw [h1]; rfl, ?_⟩
  rw [h3 (by simp [waitingSteps]), waitingSteps_atOnce, ht]
  decide +kernel

end Openleadr
