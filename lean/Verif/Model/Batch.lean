import Verif.Model.Results
import Verif.Model.Parallel

/-!
# Batches of configurations: `parallel/cscmparwrapper.py`, `parallel/distributionrun.py`

The worker of `run_ciceroscm_parallel`, with the driver of the model. (`Verif/Model/Parallel.lean` has the scheduling
around it, for any worker.)
-/

namespace Verif.Model.Batch
open Verif.Py Verif.Model Verif.Model.Handler Verif.Model.Driver Verif.Model.CarbonOut Verif.Model.Results

/-- A configuration: cscmparwrapper.py:191-193 and 204 read the three parameter sets (absent ones are `None`) and the key
`Index` (here always there; it is read only when a row is made). -/
structure Cfg (F : Type) where
  index : String
  pams : RunPams F

/-- A row of the result, cscmparwrapper.py:198-218: the labels, then a value for each year. -/
structure Row (F : Type) where
  climateModel : String
  model : String
  runId : String
  scenario : String
  region : String
  variableName : String
  unit : String
  years : List Int
  values : List F

/-- What `CSCMParWrapper.__init__` keeps, cscmparwrapper.py:133-159: the units and components of the gas table
(`sdatagetter`), the years of the reader, the model instance and the scenario name (used as `model` too). -/
structure Wrapper (F κ : Type) where
  units : Reader.Units
  indices : List Int
  cscm : Driver F κ
  scen : String

/-- A scenario as given to the wrapper: its dictionary (only the years are read here), its name, and what building the gas
table reader and the model instance from it gives. -/
structure Scenario (F κ : Type) where
  data : Dict (PyVal F)
  name : String
  units : Except PyErr Reader.Units
  build : Except PyErr (Driver F κ)

section
variable {F κ τ : Type} [Add F] [Sub F] [Mul F] [Div F] [Neg F] [OfScientific F] [LT F] [DecidableLT F]
  [MathFn F]

/-- cscmparwrapper.py:47-49: the years that are filled in. -/
def yearDefaults : Dict (PyVal F) :=
  [("nystart", .int 1750), ("nyend", .int 2100), ("emstart", .int 1850)]

/-- cscmparwrapper.py:47-50 and 145-159. -/
def wrapperInit (s : Scenario F κ) : Except PyErr (Wrapper F κ) := do
  let data := checkNumericPamset yearDefaults s.data
  let nystart ← pamI data "nystart"
  let nyend ← pamI data "nyend"
  let units ← s.units
  let cscm ← s.build
  return ⟨units, pyRange nystart (nyend + 1), cscm, s.name⟩

/-- cscmparwrapper.py:195-218 for one variable: no row when its unit is `NoUnit`. (Line 205, an empty frame of years, does
not occur: the reader returns years as an array or, with `NoUnit`, an empty list.) -/
def rowOf (w : Wrapper F κ) (index : String) (r : Reader.Results F) (v : String) : Except PyErr (Option (Row F)) := do
  let a ← Reader.getVariable r w.indices v w.units
  if a.unit = "NoUnit" then return none
  else return some ⟨"CICERO-SCM-PY", w.scen, index, w.scen, "World", v, a.unit, a.years, a.series⟩

/-- cscmparwrapper.py:189-218: one configuration. The configuration of the run has the key `carbon_cycle_outputs`
whatever its value. -/
def stepCfg (cops : CarbonOps F κ) (oops : OutputOps F κ) (tops : ThermalOps F τ) (vars : List String)
    (w : Wrapper F κ) (c : Cfg F) : Except PyErr (Wrapper F κ × List (Row F)) := do
  let d ← run cops tops w.cscm c.pams
  let r ← runResults oops tops d.1 true
  let rows ← vars.mapM (rowOf w c.index r.1)
  return ({ w with cscm := r.2 }, rows.filterMap id)

/-- cscmparwrapper.py:59-125 with the model. -/
def runModelParallel (sched : Parallel.Schedule) (cops : CarbonOps F κ) (oops : OutputOps F κ) (tops : ThermalOps F τ)
    (vars : List String) (scendata : List (Scenario F κ)) (cfgs : List (Cfg F)) (max_workers : Int) :
    Except PyErr (List (Row F)) :=
  Parallel.runCiceroscmParallel sched wrapperInit (stepCfg cops oops tops vars) scendata cfgs max_workers

/-- distributionrun.py:77-78: a single scenario (a dictionary) is made a list of one. -/
def scenarioList {S : Type} : S ⊕ List S → List S
  | .inl s => [s]
  | .inr l => l

/-- distributionrun.py:64-79 `run_over_distribution`, for the configurations of the distribution run. -/
def runOverDistribution (sched : Parallel.Schedule) (cops : CarbonOps F κ) (oops : OutputOps F κ) (tops : ThermalOps F τ)
    (vars : List String) (scendata : Scenario F κ ⊕ List (Scenario F κ)) (cfgs : List (Cfg F)) (max_workers : Int) :
    Except PyErr (List (Row F)) :=
  runModelParallel sched cops oops tops vars (scenarioList scendata) cfgs max_workers

end

end Verif.Model.Batch
