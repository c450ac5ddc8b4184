import Verif.Py.Basic

/-!
# Parallel execution: `parallel/_parallel_process.py`, `parallel/cscmparwrapper.py`
-/

namespace Verif.Model.Parallel
open Verif.Py

/-- Python slice bound: negative indices count from the end, bounds are clipped. -/
def sliceIdx (len : Nat) (i : Int) : Nat :=
  if i < 0 then (len + i).toNat else min i.toNat len

/-- Python `l[a:b]`. -/
def slice {α : Type} (l : List α) (a b : Int) : List α :=
  (l.take (sliceIdx l.length b)).drop (sliceIdx l.length a)

/-- Python `l[a:]`. -/
def sliceFrom {α : Type} (l : List α) (a : Int) : List α := l.drop (sliceIdx l.length a)

/-- Python `l[:b]`. -/
def sliceTo {α : Type} (l : List α) (b : Int) : List α := l.take (sliceIdx l.length b)

/-! ## `_parallel_process.py` -/

section
variable {C R : Type}

/-- `_run_serial`, _parallel_process.py:44-56. The first failing call raises. (`config_are_kwargs`
only selects the calling convention and is not modelled; nor is the progress bar.) -/
def runSerial (func : C → Except PyErr R) (configs : List C) : Except PyErr (List R) :=
  configs.mapM func

/-- How the pool happens to execute a list of submitted jobs: the order in which the futures
complete and whether `as_completed` ran into its timeout before all of them did. -/
structure Schedule where
  order : List Nat
  timedOut : Bool

/-- A schedule the executor can produce for `n` submitted jobs: every job completes exactly once,
unless the timeout strikes first. -/
def Schedule.Valid (s : Schedule) (n : Nat) : Prop :=
  s.timedOut = true ∨ s.order.Perm (List.range n)

/-- The exception of a finished job, if it failed. -/
def failedWith : Option (Except PyErr R) → Option PyErr
  | some (.error e) => some e
  | _ => none

/-- What is kept of a finished job, lines 88-94: its result, or the exception as a value. -/
def outcome : Except PyErr R → PyErr ⊕ R
  | .ok r => Sum.inr r
  | .error e => Sum.inl e

/-- Lines 72-81: wait for the jobs in completion order; the first one that failed raises. -/
def waitAll (futures : List (Except PyErr R)) : List Nat → Except PyErr Unit
  | [] => pure ()
  | i :: order =>
    match failedWith futures[i]? with
    | some e => throw e
    | none => waitAll futures order

/-- `_run_parallel`, _parallel_process.py:59-97. A job's outcome does not depend on the schedule
(jobs run in separate processes). Lines 72-81: the first future to complete with an exception
raises it; line 73: a timeout raises. Lines 85-94: results are collected in submission order. -/
def runParallel (sched : Schedule) (func : C → Except PyErr R) (configs : List C) :
    Except PyErr (List (PyErr ⊕ R)) := do
  let futures := configs.map func
  waitAll futures sched.order
  if sched.timedOut then throw .other
  else return futures.map outcome

/-- Lines 149-157: the front serial runs. -/
def frontSerial (func : C → Except PyErr R) (configuration : List C) (front_serial : Int) :
    Except PyErr (List R) :=
  if front_serial > 0 then runSerial func (sliceTo configuration front_serial) else pure []

/-- Lines 170-181: the front parallel runs. -/
def frontParallel (sched : Schedule) (func : C → Except PyErr R) (configuration : List C)
    (front_serial front_parallel : Int) : Except PyErr (List (PyErr ⊕ R)) :=
  if front_parallel > 0 then
    runParallel sched func (slice configuration front_serial (front_serial + front_parallel))
  else pure []

/-- `_parallel_process` with a pool, _parallel_process.py:100-194. `s1`, `s2` are the schedules of the
two parallel phases. -/
def parallelProcess (s1 s2 : Schedule) (func : C → Except PyErr R) (configuration : List C)
    (front_serial front_parallel : Int) : Except PyErr (List (PyErr ⊕ R)) := do
  let front_serial_res ← frontSerial func configuration front_serial
  let front_parallel_res ← frontParallel s1 func configuration front_serial front_parallel
  let rest ← runParallel s2 func (sliceFrom configuration (front_serial + front_parallel))
  return front_serial_res.map Sum.inr ++ front_parallel_res ++ rest

/-- `_parallel_process` with `pool=None`, _parallel_process.py:149-168. -/
def serialProcess (func : C → Except PyErr R) (configuration : List C) (front_serial : Int) :
    Except PyErr (List R) := do
  let front_serial_res ← frontSerial func configuration front_serial
  let rest ← runSerial func (sliceFrom configuration front_serial)
  return rest ++ front_serial_res

end

/-! ## `cscmparwrapper.py` -/

section
variable {S C St Row : Type}

/-- One element of `runs`, cscmparwrapper.py:86-98 (the output variables are the same in all). -/
structure Run (S C : Type) where
  cfgs : List C
  scen : S

/-- `[cfgs[i : i + n] for i in range(0, len(cfgs), n)]`, cscmparwrapper.py:96, for `n ≥ 1`. -/
def batches (n : Nat) (cfgs : List C) : List (List C) :=
  (List.range ((cfgs.length + n - 1) / n)).map fun j => (cfgs.drop (j * n)).take n

/-- The list `runs` of `run_ciceroscm_parallel`, cscmparwrapper.py:85-98. -/
def makeRuns (scendata : List S) (cfgs : List C) (max_workers : Int) : List (Run S C) :=
  if max_workers ≤ scendata.length ∨ (cfgs.length * scendata.length : Int) < max_workers then
    scendata.map fun scen => ⟨cfgs, scen⟩
  else
    let batch_size := ((cfgs.length * scendata.length : Int) / max_workers).toNat
    scendata.flatMap fun scen => (batches batch_size cfgs).map fun b => ⟨b, scen⟩

/-- `pd.concat` of a list of frames: rows in order, `ValueError` when there is nothing to
concatenate. -/
def concat (frames : List (List Row)) : Except PyErr (List Row) :=
  if frames.isEmpty then throw .valueError else return frames.flatten

/-- `run_over_cfgs`, cscmparwrapper.py:189-232: one model instance runs the configurations one after
another, its state carried along (`step`); each gives some output rows; no rows at all is a
`ValueError` of `pd.concat`. -/
def runOverCfgs (step : St → C → Except PyErr (St × List Row)) (st : St) (cfgs : List C) :
    Except PyErr (List Row) := do
  let (_, rows) ← cfgs.foldlM (fun (acc : St × List Row) c => do
    let (st, rows) ← step acc.1 c
    return (st, acc.2 ++ rows)) (st, [])
  if rows.isEmpty then throw .valueError else return rows

/-- `_execute_run`, cscmparwrapper.py:27-56: build an instance for the scenario, run over the
configurations. -/
def executeRun (init : S → Except PyErr St) (step : St → C → Except PyErr (St × List Row))
    (r : Run S C) : Except PyErr (List Row) := do
  let st ← init r.scen
  runOverCfgs step st r.cfgs

/-- What `pd.concat` makes of a stored outcome: an exception object is a `TypeError`. -/
def unwrap : PyErr ⊕ List Row → Except PyErr (List Row)
  | .inr r => .ok r
  | .inl _ => .error .typeError

/-- `run_ciceroscm_parallel`, cscmparwrapper.py:59-125 (`FRONT_SERIAL = FRONT_PARALLEL = 0`). A
non-positive `max_workers` makes the `ProcessPoolExecutor` constructor raise `ValueError`. Line 123
(`r is not None`) never filters anything since `_execute_run` returns frames; a stored exception
would make `pd.concat` raise `TypeError`. -/
def runCiceroscmParallel (sched : Schedule) (init : S → Except PyErr St)
    (step : St → C → Except PyErr (St × List Row)) (scendata : List S) (cfgs : List C)
    (max_workers : Int) : Except PyErr (List Row) :=
  let runs := makeRuns scendata cfgs max_workers
  if max_workers = 1 then
    runs.mapM (executeRun init step) >>= concat
  else if max_workers ≤ 0 then throw .valueError
  else do
    let result ← parallelProcess ⟨[], false⟩ sched (executeRun init step) runs 0 0
    result.mapM unwrap >>= concat

end
end Verif.Model.Parallel
