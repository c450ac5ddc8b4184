import Verif.Model.Files

/-!
# One instance over several runs, with its results dictionary

`self.results` of `CICEROSCM` (ciceroscm.py:131 creates it once, with the instance). The yearly series of it are part of
`Driver`; the tables a run adds to it (ciceroscm.py:305-319) are kept here. Nothing ever removes an entry.
-/

namespace Verif.Model.Session
open Verif.Py Verif.Model Verif.Model.Handler Verif.Model.Driver Verif.Model.CarbonOut Verif.Model.Results
  Verif.Model.Files

/-- How the results of a run are asked for, ciceroscm.py:305 and concentrations_emissions_handler.py:1022, 951: as a
dictionary (`results_as_dict`), with or without the key `carbon_cycle_outputs`; or as files. -/
inductive Ask where
  | dict (carbon : Bool)
  | files (c : OutCfg)

/-- The arguments of one `_run`: its parameter sets and how the results are asked for. ciceroscm.py:231-239. -/
structure Call (F : Type) where
  pams : RunPams F
  out : Ask

/-- An instance with the tables its `results` dictionary holds. -/
structure Session (F κ : Type) where
  driver : Driver F κ
  tables : Dict (Reader.Df F)

/-- What a user reads from `self.results`. -/
def Session.results {F κ : Type} (s : Session F κ) : Reader.Results F := ⟨s.tables, s.driver.results⟩

/-- The same instance with an empty results dictionary. -/
def Session.emptied {F κ : Type} (s : Session F κ) : Session F κ := ⟨{ s.driver with results := [] }, []⟩

section
variable {F κ τ : Type} [Add F] [Sub F] [Mul F] [Div F] [Neg F] [OfScientific F] [LT F] [DecidableLT F]
  [MathFn F]

/-- `_run(cfg, pamset_udm, pamset_emiconc, pamset_carbon)`, ciceroscm.py:231-332 (without plots): the run, then
`self.results.update(...)` with the tables, or the files. -/
def callRun (fmt : F → String) (cwd : String) (cops : CarbonOps F κ) (oops : OutputOps F κ) (tops : ThermalOps F τ)
    (s : Session F κ) (c : Call F) : Except PyErr (Session F κ) := do
  let d ← run cops tops s.driver c.pams
  match c.out with
  | .dict asked =>
    let r ← runResults oops tops d.1 asked
    return ⟨r.2, s.tables.update r.1.tables⟩
  | .files o =>
    let d' ← (runFiles fmt cwd o oops tops d.1).2
    return ⟨d', s.tables⟩

end
end Verif.Model.Session
