import Verif.Model.VenReports
/-!
Overlapping runs of `update_report` (openleadr/client.py:848-930): a callback may be a coroutine, and while it is awaited (client.py:881-882,
893-894) other jobs of the scheduler and messages of the VTN are taken care of.
-/
namespace Openleadr

/-- What a run of `update_report` has read before it calls the first callback: the request, the report offered, and the report being compiled. -/
structure SampleRun where
  q : Value
  request : VenRequest
  report : VenReport
  out : OutReport
  deriving DecidableEq, Repr

/-- client.py:852-870: up to the first callback. -/
def beginUpdate (s : VenReports) (q : Value) : Res SampleRun :=
  match s.requests.find? (fun r => decide (r.requestId = q)) with
  | none => .error .typeError
  | some rq =>
    match s.reports.find? (fun r => decide (Value.str r.specifierId = rq.specifierId)) with
    | none => .error .attributeError
    | some report => .ok ⟨q, rq, report, (getIncomplete s.incomplete q).getD ⟨q, report.specifierId, outName report.name, none, []⟩⟩

/-- client.py:871-930: the samples, and what is done with them. `s` is the state when the last callback has answered. Simplification: the intervals
    of a report in progress are a list that is extended in place, and a second run of the same request that overlaps would see this; here a run
    works on what it read at its beginning. This is exact as long as no other run of the same request overlaps, and also for one that does if no
    report was in progress when they began (each then makes its own). Model/SharedReport has the other case. -/
def endUpdate (user : Sampler) (now : Int) (s : VenReports) (x : SampleRun) : VenReports × List SampleCall × Res Unit :=
  match collect s user now x.request x.report x.out.intervals with
  | (calls, intervals, .error e) => (keepPartial s x.q intervals, calls, .error e)
  | (calls, intervals, .ok ()) =>
    match expectedLen x.report.full x.request.reportBack x.request.granularity ((s.lists[x.request.rIds]?).getD []).length with
    | .error e =>
      (match getIncomplete s.incomplete x.q with
       | some _ => { s with incomplete := setIncomplete s.incomplete x.q (finished x.out intervals) }
       | none => s, calls, .error e)
    | .ok none => ({ s with pending := s.pending ++ [finished x.out intervals],
                            incomplete := match getIncomplete s.incomplete x.q with
                                          | some _ => setIncomplete s.incomplete x.q (finished x.out intervals)
                                          | none => s.incomplete }, calls, .ok ())
    | .ok (some n) =>
      if (intervals.length : Int) = n then
        match getIncomplete s.incomplete x.q with
        | none => (s, calls, .error .keyError)
        | some _ => ({ s with pending := s.pending ++ [finished x.out intervals], incomplete := eraseIncomplete s.incomplete x.q }, calls, .ok ())
      else ({ s with incomplete := setIncomplete s.incomplete x.q (finished x.out intervals) }, calls, .ok ())

/-- The reports of the client, and the runs of `update_report` that wait for a callback. -/
structure Sampling where
  reports : VenReports
  runs : List SampleRun := []
  calls : List SampleCall := []

/-- A step: a run for a request begins, or the run for a request ends, with the answers of its callbacks. -/
inductive SampleStep
  | begins (q : Value)
  | ends (q : Value) (user : Sampler) (now : Int)

/-- One step. The first waiting run for the request is the one that ends; nothing happens if there is none, as for a run that raised in the
    beginning. -/
def Sampling.step (x : Sampling) : SampleStep → Sampling
  | .begins q =>
    match beginUpdate x.reports q with
    | .error _ => x
    | .ok r => { x with runs := x.runs ++ [r] }
  | .ends q user now =>
    match x.runs.find? (fun r => decide (r.q = q)) with
    | none => x
    | some r =>
      let y := endUpdate user now x.reports r
      ⟨y.1, x.runs.eraseP (fun r => decide (r.q = q)), x.calls ++ y.2.1⟩

/-- All steps. -/
def Sampling.run (x : Sampling) (l : List SampleStep) : Sampling := l.foldl Sampling.step x

end Openleadr
