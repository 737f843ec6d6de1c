import Verif.Props.ReportLife
import Verif.Props.VenCancel
/-!
C109 after a cancellation: what was queued for the request still arrives, and nothing else does (openleadr/client.py:848-996).
-/
namespace Openleadr

/-- Updates of whatever requests queue nothing for one that is not there. -/
theorem runTicks_none (k q : Value) (ticks : List Tick) : ∀ {s : VenReports}, Keyed s → (∀ rq ∈ s.requests, rq.requestId ≠ q) → s.pending = [] →
    ∀ o ∈ (runTicks k s ticks).1.pending, o.requestId ≠ q := by
  induction ticks with
  | nil => intro s _ _ hp o ho; simp [runTicks, hp] at ho
  | cons t ts ih =>
    intro s hk hr hp o ho
    rw [runTicks_step] at ho
    have hs := updateReport_sameBut t.user t.now s t.request
    have hkey := updateReport_keyed t.user t.now s t.request hk
    rcases List.mem_append.mp ho with ho | ho
    · by_cases htq : t.request = q
      · have : (updateReport t.user t.now s t.request).1 = s := by
          unfold updateReport
          rw [List.find?_eq_none.mpr (by intro r hm; rw [htq]; simp [hr r hm])]
        rw [this, hp] at ho
        cases ho
      · obtain ⟨new, h1, h2⟩ := hkey.2
        rw [h1, hp, List.nil_append] at ho
        rw [h2 o ho]
        exact htq
    · exact ih (s := { (updateReport t.user t.now s t.request).1 with pending := [] }) hkey.1 (by rw [show VenReports.requests _ = _ from hs.requests]; exact hr) rfl o ho

/-- **C109** after `cancel_report`: whatever jobs still fire, for this request or others, and however the worker goes on, the callback of the VTN is handed what
    was in the queue for the request when it was cancelled, and what its last updates have added, in order and each value once, and never anything else. If
    reports are lost, values are missing, but none comes twice or in another order. The queue is any; the cancellation takes place at one moment. -/
theorem c109_after_cancel {lib : Lib} {c : Config} {user : ReportCall → Res Unit} {svc : Service ReportVtn} (hsvc : svc.Updates user) {secure : Bool}
    {peer : Option String} {ven : String} (hu : ∀ call, user call = .ok ()) {q : String} (last last' : Sampler) (now now' : Int) (s s' : VenReports) (hinv : VenInv s)
    (hids : (s.requests.map VenRequest.requestId).Nodup) (cr : CancelReport) (hq : cr.requestId = .str q) (samples : List SampleCall) (reply : CanceledReport)
    (hcancel : cancelReport last last' now now' s cr = (s', samples, .ok (some reply)))
    (x : Reporting) (hx : x.ven = { s' with pending := [] }) (hw : x.delivery.worker.running = true) (steps : List ReportStep)
    (hsend : ∀ o ∈ x.delivery.worker.queue ++ (runTicks (.str q) x.ven (ReportStep.ticks steps)).1.pending, o.Sendable lib)
    (hready : AllReady lib c svc secure peer ven x steps) (r cb : Value) (hcb : getCallback x.delivery.vtn.1.callbacks (.str q, r) = some cb) :
    let y := x.run c svc secure peer (.str ven) steps
    y.delivery.worker.running = true ∧
    ∃ calls, y.delivery.vtn = (x.delivery.vtn.1, x.delivery.vtn.2 ++ calls) ∧
      (deliveredTo calls (.str q) r ++ waiting lib q r y.delivery.worker.queue).Sublist (waiting lib q r x.delivery.worker.queue) ∧
      (ReportStep.lost ∉ steps → deliveredTo calls (.str q) r ++ waiting lib q r y.delivery.worker.queue = waiting lib q r x.delivery.worker.queue) := by
  have hne : x.delivery.vtn.1.callbacks ≠ [] := by
    intro h
    rw [h] at hcb
    simp [getCallback] at hcb
  have hp : x.ven.pending = [] := by rw [hx]
  have hven : ({ x.ven with pending := [] } : VenReports) = x.ven := by rw [← hp]
  have hkey : Keyed x.ven := by
    have := (cancelReport_inv last last' now now' s cr hinv).keyed
    rw [hcancel] at this
    rw [hx]; exact this
  have hnone : ∀ rq ∈ x.ven.requests, rq.requestId ≠ .str q := by
    obtain ⟨rq, pre, post, h1, h2, h3, h4, -⟩ := c60_cancelled last last' now now' s s' hinv cr samples reply hcancel
    rw [hx]
    simp only [h4]
    rw [h1] at hids
    intro r hr
    rcases List.mem_append.mp hr with hr | hr
    · rw [← hq]; exact h3 r hr
    · rw [← hq, ← h2]
      intro he
      rw [List.map_append, List.map_cons] at hids
      have := (List.nodup_append.mp hids).2.1
      rw [List.nodup_cons] at this
      exact this.1 (he ▸ List.mem_map_of_mem hr)
  obtain ⟨h1, done, kept, calls, h2, h3, h4⟩ := reporting_kept (lib := lib) (c := c) (secure := secure) (peer := peer) (ven := ven) hsvc hu (.str q) steps x hw hne hready
    (by rw [hven]; exact hsend) hp
  rw [hven] at h3
  have hval : deliveredTo calls (.str q) r = waiting lib q r kept := by rw [h3.values, if_neg (by rw [hcb]; simp)]; rfl
  have happ : ∀ a b, waiting lib q r (a ++ b) = waiting lib q r a ++ waiting lib q r b := by intro a b; simp [waiting]
  have hnew : waiting lib q r (runTicks (.str q) x.ven (ReportStep.ticks steps)).1.pending = [] := by
    unfold waiting
    rw [List.filter_eq_nil_iff.mpr (fun o ho => by simpa using runTicks_none (.str q) (.str q) _ hkey hnone hp o ho)]
    rfl
  have hall : waiting lib q r (done ++ (x.run c svc secure peer (.str ven) steps).delivery.worker.queue) = waiting lib q r x.delivery.worker.queue := by
    rw [h3.order, happ, hnew, List.append_nil]
  intro y
  refine ⟨h1, calls, h2, ?_, fun hn => ?_⟩
  · rw [hval, ← hall, happ]
    exact List.Sublist.append_right (waiting_sublist h3.among) _
  · rw [hval, ← hall, happ, h4 hn]

/-! ### A concrete case -/

theorem runTicks_inv (q : Value) (ticks : List Tick) : ∀ {s : VenReports}, VenInv s → VenInv (runTicks q s ticks).1 := by
  induction ticks with
  | nil => intro s h; exact h
  | cons t ts ih => intro s h; exact ih (updateReport_inv t.user t.now s t.request h)

/-- Four updates: a report of three samples is in the queue, and the next one is begun. -/
def beforeCancel : VenReports := (runTicks (.str "q") (asked 30 10 ["a", "b"]) (clock 4)).1

theorem beforeCancel_inv : VenInv beforeCancel := by
  refine runTicks_inv _ _ ?_
  have : asked 30 10 ["a", "b"] = venState newId [.add { addVoltage with specifierId := some "s", rId := some "a" },
    .add { addVoltage with specifierId := some "s", rId := some "b" },
    .add { addVoltage with name := "HISTORY_USAGE", specifierId := some "t", rId := some "c" }, .create ones 0 [ask "q" "s" 30 10 ["a", "b"]]] := by rfl
  rw [this]
  exact venState_inv _ _

/-- The VTN cancels the request, and no report is to follow. -/
def cancelQ : CancelReport := ⟨.str "q", some false, some (.str "m")⟩

/-- What the VEN knows after that. -/
def afterCancel : VenReports := (cancelReport ones ones 4 4 beforeCancel cancelQ).1

/-- The request is cancelled, with one report still to be sent. -/
def cancelledReporting : Reporting :=
  ⟨{ afterCancel with pending := [] }, ⟨⟨true, afterCancel.pending, [], []⟩, [],
    ({ callbacks := [((.str "q", .str "b"), .func 2)], requested := [], created := [], registered := [], ids := 0 }, [])⟩⟩

/-- The job fires once more before the report is sent, and twice afterwards; the answer of the VTN is lost. -/
def stepsAfterCancel : List ReportStep := [clockStep 5, .answerLost sampleTurn, clockStep 6, clockStep 7]

theorem cancelled_sendable : ∀ o ∈ cancelledReporting.delivery.worker.queue ++
    (runTicks (.str "q") cancelledReporting.ven (ReportStep.ticks stepsAfterCancel)).1.pending, o.Sendable plainLib := by
  have : (cancelledReporting.delivery.worker.queue ++ (runTicks (.str "q") cancelledReporting.ven (ReportStep.ticks stepsAfterCancel)).1.pending).all
      (fun o => (runTicks (.str "q") (asked 30 10 ["a", "b"]) (clock 7)).1.pending.any (fun p => decide (p = o))) = true := by decide +kernel
  intro o ho
  have := List.all_eq_true.mp this o ho
  obtain ⟨p, hp, he⟩ := List.any_eq_true.mp this
  have he : p = o := by simpa using he
  exact he ▸ clock_reports.own.1 p hp

/-- `c109_after_cancel`: the three values of the report that was queued arrive, and no others. -/
example : ∃ calls, (cancelledReporting.run sampleVtn (updateService (fun _ => .ok ())) false none (.str "ven1") stepsAfterCancel).delivery.vtn.2 = calls ∧
    deliveredTo calls (.str "q") (.str "b") ++ waiting plainLib "q" (.str "b")
        (cancelledReporting.run sampleVtn (updateService (fun _ => .ok ())) false none (.str "ven1") stepsAfterCancel).delivery.worker.queue =
      [(.datetime 0, .float "0.0"), (.datetime 1, .float "1.0"), (.datetime 2, .float "2.0")] := by
  have hc : (cancelReport ones ones 4 4 beforeCancel cancelQ).2.2 = .ok (some ⟨.str "m", .str "q", []⟩) := by decide +kernel
  have hready : AllReady plainLib sampleVtn (updateService (fun _ => .ok ())) false none "ven1" cancelledReporting stepsAfterCancel := by
    refine allReady_of (user := fun _ => .ok ()) (updateService_updates _) (fun _ => rfl) (.str "q") [] stepsAfterCancel cancelledReporting rfl rfl rfl cancelled_sendable ?_
    intro t ht
    have : t = sampleTurn := by simpa [stepsAfterCancel, clockStep] using ht
    rw [this]
    exact ⟨rfl, fun o _ => sampleTurn_ready o⟩
  obtain ⟨-, calls, h1, -, h3⟩ := c109_after_cancel (lib := plainLib) (c := sampleVtn) (user := fun _ => .ok ()) (secure := false) (peer := none) (ven := "ven1")
    (updateService_updates _) (fun _ => rfl) (q := "q") ones ones 4 4 beforeCancel afterCancel beforeCancel_inv (by decide +kernel) cancelQ rfl
    (cancelReport ones ones 4 4 beforeCancel cancelQ).2.1 ⟨.str "m", .str "q", []⟩ (by rw [← hc]; rfl) cancelledReporting rfl rfl stepsAfterCancel cancelled_sendable hready
    (.str "b") (.func 2) (by decide +kernel)
  refine ⟨calls, by rw [h1]; rfl, ?_⟩
  rw [h3 (by simp [stepsAfterCancel, clockStep])]
  decide +kernel

end Openleadr
