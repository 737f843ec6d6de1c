import Verif.Model.Sampling
/-!
Overlapping runs of `update_report` for one and the same request (openleadr/client.py:848-930), with the objects they share: a run holds a
reference to the report being compiled, and to its list of intervals, which is extended in place.
-/
namespace Openleadr

/-- The objects of one request whose report is held back until it has its samples (client.py:917-926). `lists` are the lists of intervals,
    `objects` the reports (each with the list that is its `intervals`), `progress` is `incomplete_reports[report_request_id]`, `queued` what was
    put into `pending_reports`, and `runs` are the runs of `update_report`, with their report and list, `none` for one that has ended.
    Simplification: of a report only the intervals are kept; requests do not share any of these objects, so that one is enough. -/
structure Compiling where
  lists : List (List OutInterval) := []
  objects : List Nat := []
  progress : Option Nat := none
  queued : List Nat := []
  runs : List (Option (Nat × Nat)) := []

/-- A run begins; the callback of a data point has answered with samples; a run ends. Runs have the numbers 0, 1, … in the order in which they begin. -/
inductive CompileStep
  | begins
  | adds (run : Nat) (samples : List OutInterval)
  | ends (run : Nat)

/-- client.py:860-930 in steps; `n` is `expected_len` (client.py:921). -/
def Compiling.step (n : Nat) (x : Compiling) : CompileStep → Compiling
  | .begins =>
    match x.progress with
    | some o =>                                                                          -- 860-862
      if x.lists.getD (x.objects.getD o 0) [] = [] then                                  -- 870: `or []`
        { x with lists := x.lists ++ [[]], runs := x.runs ++ [some (o, x.lists.length)] }
      else { x with runs := x.runs ++ [some (o, x.objects.getD o 0)] }
    | none =>                                                                            -- 863-868, and the `or []` of 870
      { x with lists := x.lists ++ [[], []], objects := x.objects ++ [x.lists.length], runs := x.runs ++ [some (x.objects.length, x.lists.length + 1)] }
  | .adds k samples =>
    match x.runs.getD k none with
    | none => x
    | some (_, l) => { x with lists := x.lists.set l (x.lists.getD l [] ++ samples) }    -- 897-906
  | .ends k =>
    match x.runs.getD k none with
    | none => x
    | some (o, l) =>
      let y := { x with objects := x.objects.set o l, runs := x.runs.set k none }        -- 909
      if (x.lists.getD l []).length = n then                                             -- 922
        match x.progress with
        | none => y                                                                      -- 924: KeyError
        | some p => { y with queued := x.queued ++ [p], progress := none }               -- 924
      else { y with progress := some o }                                                 -- 927

/-- All steps. -/
def Compiling.run (n : Nat) (x : Compiling) (l : List CompileStep) : Compiling := l.foldl (Compiling.step n) x

/-- The intervals of a report. -/
def Compiling.intervals (x : Compiling) (o : Nat) : List OutInterval := x.lists.getD (x.objects.getD o 0) []

end Openleadr
