import Verif.Model.ReportExchange
import Verif.Model.Sampling
/-!
The life of the reports of a VEN: the jobs of the scheduler that update them (openleadr/client.py:848-930) and the
worker that sends those that are complete (client.py:975-996) run in one event loop, beside one another, and share the queue `pending_reports` (client.py:91).

In `Reporting`, an update takes place at one moment. In `Waiting`, updates wait for callbacks that are coroutines, as in `Model/Sampling.lean`. A turn of the worker takes
place at one moment: only the worker takes reports from the queue, and the calls at the VTN are made in one request.
-/
namespace Openleadr

/-- The VEN and the VTN. The queue of the VEN is that of the worker (`delivery.worker.queue`); `ven.pending` is empty between the steps. -/
structure Reporting where
  ven : VenReports
  delivery : Delivery

/-- What happens. -/
inductive ReportStep
  /-- a job of the scheduler updates the report of a request (client.py:848) -/
  | update (user : Sampler) (now : Int) (request : Value)
  /-- the worker sends a report to the VTN and gets the answer (client.py:981-989) -/
  | turn (t : Turn)
  /-- the worker sends a report to the VTN, but the answer does not arrive: `_perform_request` gives `(None, {})` (client.py:1099-1106) -/
  | answerLost (t : Turn)
  /-- the worker cannot reach the VTN: `_perform_request` gives `(None, {})` (client.py:1099-1106) -/
  | lost

/-- client.py:924, 930: what an update has put into the queue is behind all that is in it already. -/
def Reporting.update (x : Reporting) (user : Sampler) (now : Int) (request : Value) : Reporting :=
  let r := updateReport user now x.ven request
  ⟨{ r.1 with pending := [] }, { x.delivery with worker := { x.delivery.worker with queue := x.delivery.worker.queue ++ r.1.pending } }⟩

/-- client.py:979-996 when the answer is lost: the VTN has done what it does, the worker finds a failure. -/
def Delivery.unanswered (c : Config) (svc : Service ReportVtn) (secure : Bool) (peer : Option String) (ven : Value) (x : Delivery) (t : Turn) : Delivery :=
  { x.turn c svc secure peer ven t with worker := x.worker.turn .failed }

/-- One step. -/
def Reporting.step (c : Config) (svc : Service ReportVtn) (secure : Bool) (peer : Option String) (ven : Value) (x : Reporting) : ReportStep → Reporting
  | .update user now request => x.update user now request
  | .turn t => { x with delivery := x.delivery.turn c svc secure peer ven t }
  | .answerLost t => { x with delivery := x.delivery.unanswered c svc secure peer ven t }
  | .lost => { x with delivery := { x.delivery with worker := x.delivery.worker.turn .failed } }

/-- A history. -/
def Reporting.run (c : Config) (svc : Service ReportVtn) (secure : Bool) (peer : Option String) (ven : Value) : Reporting → List ReportStep → Reporting
  | x, [] => x
  | x, s :: steps => Reporting.run c svc secure peer ven (x.step c svc secure peer ven s) steps

/-! ### Callbacks that take their time -/

/-- As `Reporting`, with the updates that wait for a callback. -/
structure Waiting where
  reporting : Reporting
  runs : List SampleRun

/-- What happens: an update begins, or has got all its answers (client.py:881-882, 893-894), or the worker has a turn. -/
inductive WaitingStep
  | sample (s : SampleStep)
  | turn (t : Turn)
  | answerLost (t : Turn)
  | lost

/-- One step. -/
def Waiting.step (c : Config) (svc : Service ReportVtn) (secure : Bool) (peer : Option String) (ven : Value) (x : Waiting) : WaitingStep → Waiting
  | .sample s =>
    let y := (⟨x.reporting.ven, x.runs, []⟩ : Sampling).step s
    ⟨⟨{ y.reports with pending := [] },
      { x.reporting.delivery with worker := { x.reporting.delivery.worker with queue := x.reporting.delivery.worker.queue ++ y.reports.pending } }⟩, y.runs⟩
  | .turn t => { x with reporting := x.reporting.step c svc secure peer ven (.turn t) }
  | .answerLost t => { x with reporting := x.reporting.step c svc secure peer ven (.answerLost t) }
  | .lost => { x with reporting := x.reporting.step c svc secure peer ven .lost }

/-- A history. -/
def Waiting.run (c : Config) (svc : Service ReportVtn) (secure : Bool) (peer : Option String) (ven : Value) : Waiting → List WaitingStep → Waiting
  | x, [] => x
  | x, s :: steps => Waiting.run c svc secure peer ven (x.step c svc secure peer ven s) steps

end Openleadr
