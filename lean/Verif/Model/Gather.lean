import Verif.Model.ServerReports
/-!
Handlers written as coroutines: openleadr/utils.py:770-786 `await_if_required` and `gather_if_required`, and their use in
openleadr/service/report_service.py:91-124, where one handler is called for every data point that a VEN offers.
-/
namespace Openleadr

/-- A coroutine of the user over the state `σ` that all of them share. It either runs to its end, or up to an `await` that gives control back to
    the event loop; `pause f k` changes the state by `f` and goes on as `k` of the state it left behind. Every run of a coroutine of this type ends
    (one that never does never answers the VEN). -/
inductive Co (σ : Type)
  | finish (f : σ → σ × Res Value)
  | pause (f : σ → σ) (k : σ → Co σ)

/-- What calling a handler gives: a value (plain function), a coroutine that has not started yet (`async def`), or an exception. -/
inductive Called (σ : Type)
  | value (v : Value)
  | coroutine (c : Co σ)
  | raises (e : Err)

/-- `asyncio.iscoroutine(result)` (openleadr/utils.py:771, 780, 782). -/
def Called.isCoroutine : Called σ → Bool
  | .coroutine _ => true
  | _ => false

/-- One coroutine awaited alone, until its end. While it waits, other parts of the program may change the state: `other` says how, for every
    wait. -/
def Co.await (other : Nat → σ → σ) (n : Nat) : Co σ → σ → σ × Nat × Res Value
  | .finish f, s => ((f s).1, n, (f s).2)
  | .pause f k, s => (k (f s)).await other (n + 1) (other n (f s))

/-- openleadr/utils.py:770-773 `await_if_required` -/
def awaitIfRequired (other : Nat → σ → σ) (n : Nat) (r : Called σ) (s : σ) : σ × Nat × Res Value :=
  match r with
  | .value v => (s, n, .ok v)
  | .coroutine c => c.await other n s
  | .raises e => (s, n, .error e)

/-- openleadr/utils.py:785: one after the other; the first exception ends the list. -/
def awaitEach (other : Nat → σ → σ) : Nat → List (Called σ) → σ → σ × Res (List Value)
  | _, [], s => (s, .ok [])
  | n, r :: rs, s =>
    match awaitIfRequired other n r s with
    | (s, _, .error e) => (s, .error e)
    | (s, n, .ok v) =>
      match awaitEach other n rs s with
      | (s, .error e) => (s, .error e)
      | (s, .ok vs) => (s, .ok (v :: vs))

/-- A task of `asyncio.gather`: still to run, or ended. -/
inductive Task (σ : Type)
  | running (c : Co σ)
  | ended (r : Res Value)

/-- The event loop lets a task run up to its next `await`, or to its end. -/
def Task.run (t : Task σ) (s : σ) : σ × Task σ :=
  match t with
  | .running (.finish f) => ((f s).1, .ended (f s).2)
  | .running (.pause f k) => (f s, .running (k (f s)))
  | .ended r => (s, .ended r)

/-- What `asyncio.gather(*tasks)` knows after some turns of the loop: the state, the tasks, and the exception of the task that failed first. -/
structure Gathering (σ : Type) where
  state : σ
  tasks : List (Task σ)
  failed : Option Err := none

/-- The exception of an ended task. -/
def Task.error? : Task σ → Option Err
  | .ended (.error e) => some e
  | _ => none

/-- The value of an ended task. -/
def Task.value? : Task σ → Option Value
  | .ended (.ok v) => some v
  | _ => none

/-- One turn of the event loop, given to task `i`. The first exception is the one `gather` hands on; the other tasks keep running all the same
    (the documentation of `asyncio.gather` with `return_exceptions=False`). -/
def Gathering.turn (g : Gathering σ) (i : Nat) : Gathering σ :=
  match g.tasks[i]? with
  | none => g
  | some t =>
    { state := (t.run g.state).1, tasks := g.tasks.set i (t.run g.state).2,
      failed := match g.failed with | some e => some e | none => (t.run g.state).2.error? }

/-- `asyncio.gather(*coroutines)` (openleadr/utils.py:783): all of them become tasks. -/
def gatherStart (cs : List (Co σ)) (s : σ) : Gathering σ := ⟨s, cs.map .running, none⟩

/-- The turns of the event loop so far. Which task is next depends on what the tasks wait for, so any order is possible. -/
def Gathering.turns (g : Gathering σ) : List Nat → Gathering σ
  | [] => g
  | i :: is => (g.turn i).turns is

/-- Where the `await` of openleadr/utils.py:783 stands: an exception, the values in the order of the arguments, or still waiting. -/
def Gathering.outcome (g : Gathering σ) : Option (Res (List Value)) :=
  match g.failed with
  | some e => some (.error e)
  | none => (g.tasks.mapM Task.value?).map .ok

/-- The value of a call that gave one at once. -/
def Called.value? : Called σ → Option Value
  | .value v => some v
  | _ => none

/-- The coroutines among the results. -/
def coroutinesOf : List (Called σ) → List (Co σ)
  | [] => []
  | .coroutine c :: rs => c :: coroutinesOf rs
  | _ :: rs => coroutinesOf rs

/-- openleadr/utils.py:776-786 `gather_if_required` for a list of results: the state and the outcome, `none` while the coroutines are not done.
    `turns` are the turns of the event loop while it is waiting in `gather`, `other` what other parts of the program do to the state while a
    single coroutine is awaited. -/
def gatherIfRequired (other : Nat → σ → σ) (turns : List Nat) (rs : List (Called σ)) (s : σ) : σ × Option (Res (List Value)) :=
  if rs.any Called.isCoroutine = false then (s, some (.ok (rs.filterMap Called.value?)))    -- 780-781
  else if rs.all Called.isCoroutine then
    let g := (gatherStart (coroutinesOf rs) s).turns turns                                 -- 782-783
    (g.state, g.outcome)
  else
    match awaitEach other 0 rs s with                                                      -- 784-785
    | (s, r) => (s, some r)

/-- report_service.py:102-108, 115-121: what the handler is called with for one data point. -/
def askOf (ven : String) (status : Bool) (p : OfferedPoint) : Res ReportAsk :=
  if p.noSource then .error .attributeError
  else if status then
    match p.samplingRate with
    | some (lo, hi) => .ok (.compact ven p.resourceId (.str "Status") .none .none lo hi)
    | none => .error .keyError
  else
    match p.measurement, p.samplingRate with
    | some (d, u, s), some (lo, hi) => .ok (.compact ven p.resourceId d u s lo hi)
    | _, _ => .error .keyError

/-- report_service.py:101-108, 114-121: the list of calls. A plain handler runs here, and may change the state; an `async` one only makes its
    coroutine. An exception, of the handler or of the arguments, ends the list: coroutines made before are dropped without ever having run. -/
def callPoints (h : ReportAsk → σ → σ × Called σ) (ven : String) (status : Bool) : List OfferedPoint → σ → σ × Res (List (Called σ))
  | [], s => (s, .ok [])
  | p :: ps, s =>
    match askOf ven status p with
    | .error e => (s, .error e)
    | .ok a =>
      match h a s with
      | (s, .raises e) => (s, .error e)
      | (s, r) =>
        match callPoints h ven status ps s with
        | (s, .error e) => (s, .error e)
        | (s, .ok rs) => (s, .ok (r :: rs))

/-- report_service.py:101-109, 114-122: all calls for the data points of one report, and their results. -/
def askPointsAsync (h : ReportAsk → σ → σ × Called σ) (other : Nat → σ → σ) (turns : List Nat) (ven : String) (status : Bool) (ps : List OfferedPoint)
    (s : σ) : σ × Option (Res (List Value)) :=
  match callPoints h ven status ps s with
  | (s, .error e) => (s, some (.error e))
  | (s, .ok rs) => gatherIfRequired other turns rs s

end Openleadr
