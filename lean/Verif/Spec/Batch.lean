import Verif.Model.Batch
import Verif.Spec.Complete

/-!
# Batches of configurations (C84), independent of the proofs
-/

namespace Verif.Spec
open Verif.Py Verif.Model Verif.Model.Handler Verif.Model.Driver Verif.Model.CarbonOut Verif.Model.Batch

section
variable {F κ τ : Type} [Add F] [Sub F] [Mul F] [Div F] [Neg F] [OfScientific F] [LT F] [DecidableLT F]
  [MathFn F]

/-- `rows` is what a worker gives that is built for scenario `s` and runs configuration `c` and nothing else. -/
def Alone (cops : CarbonOps F κ) (oops : OutputOps F κ) (tops : ThermalOps F τ) (vars : List String)
    (s : Scenario F κ) (c : Cfg F) (rows : List (Batch.Row F)) : Prop :=
  ∃ w w', wrapperInit s = .ok w ∧ stepCfg cops oops tops vars w c = .ok (w', rows)

/-- The scenario is built into a new instance `d0` with complete inputs: its handler `h0` is constructed from the inputs
`i`, the parameters `pamset` and the carbon parameters `carb`; emissions start in `es`, the reference year is `ref`. -/
structure NewFrom (cops : CarbonOps F κ) (s : Scenario F κ) (i : Inputs F) (pamset carb : Option (Dict (PyVal F)))
    (es ref : Int) (d0 : Driver F κ) (h0 : Handler F κ) : Prop where
  build : s.build = .ok d0
  source : d0.source = .handler h0
  noResults : d0.results = []
  constructed : construct cops i pamset carb = .ok h0
  gases : CompleteGases i.gas
  tables : CompleteTables i d0.nystart es d0.nyend ref
  nystart : pamI (Factory.checkPamset pamset) "nystart" = .ok d0.nystart
  nyend : pamI (Factory.checkPamset pamset) "nyend" = .ok d0.nyend
  emstart : pamI (Factory.checkPamset pamset) "emstart" = .ok es
  just : OneComponent i.gas pamset
  series : CompleteSeries d0

/-- The configurations agree on whether the run is restricted to one component. -/
def SameJustOne (cfgs : List (Cfg F)) : Prop :=
  ∀ c ∈ cfgs, ∀ c' ∈ cfgs, "just_one" ∈ Dict.keys (c'.pams.emiconc.getD []) → "just_one" ∈ Dict.keys (c.pams.emiconc.getD [])

end
end Verif.Spec

namespace Verif.Spec
open Verif.Py Verif.Model Verif.Model.Batch

/-- `y` is the year the scenario data give under `k`, or `standard` when they give none or something that is no number. -/
def YearGiven {F : Type} (data : Dict (PyVal F)) (k : String) (standard y : Int) : Prop :=
  (∃ v, data.get? k = some v ∧ v.isNum = true ∧ v.toI = some y) ∨
    ((∀ v, data.get? k = some v → v.isNum = false) ∧ y = standard)

/-- The row that reports an answer: the labels of the run, and the unit, the years and the values of the answer. -/
structure Reports {F : Type} (scen runId v : String) (a : Reader.Answer F) (r : Batch.Row F) : Prop where
  climateModel : r.climateModel = "CICERO-SCM-PY"
  model : r.model = scen
  runId : r.runId = runId
  scenario : r.scenario = scen
  region : r.region = "World"
  variableName : r.variableName = v
  unit : r.unit = a.unit
  years : r.years = a.years
  values : r.values = a.series

/-- The rows report, in the order asked for, the variables whose answer has a unit, and no others. -/
inductive RowsFor {F : Type} (scen runId : String) (answer : String → Reader.Answer F → Prop) :
    List String → List (Batch.Row F) → Prop
  | nil : RowsFor scen runId answer [] []
  | unknown {v a vars rows} : answer v a → a.unit = "NoUnit" → RowsFor scen runId answer vars rows →
      RowsFor scen runId answer (v :: vars) rows
  | known {v a r vars rows} : answer v a → a.unit ≠ "NoUnit" → Reports scen runId v a r →
      RowsFor scen runId answer vars rows → RowsFor scen runId answer (v :: vars) (r :: rows)

end Verif.Spec
