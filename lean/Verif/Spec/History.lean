import Verif.Model.Driver
import Verif.Model.CarbonInst

/-! # Histories of runs of one instance (C03, C04), independent of the proofs -/

namespace Verif.Spec
open Verif.Py Verif.Model.Handler Verif.Model.Driver

section
variable {F κ τ : Type} [Add F] [Sub F] [Mul F] [Div F] [Neg F] [OfScientific F] [LT F] [DecidableLT F]
  [MathFn F]

/-- The instance after running the parameter sets `ps` one after the other (all runs succeed). -/
inductive After (cops : CarbonOps F κ) (tops : ThermalOps F τ) (d0 : Driver F κ) :
    List (RunPams F) → Driver F κ → Prop
  | fresh : After cops tops d0 [] d0
  | next {ps p d d1 t} : After cops tops d0 ps d → run cops tops d p = .ok (d1, t) →
      After cops tops d0 (ps ++ [p]) d1

/-- The parameter set gives a number for `x`. -/
def GivesNumber (q : Dict (PyVal F)) (x : String) : Prop := ∃ v, (x, v) ∈ q ∧ v.isNum = true

/-- The carbon parameter set of a run gives box-model parameter `x` a number. -/
def BoxGives (q : Option (Dict (PyVal F))) (x : String) : Prop := ∃ new, q = some new ∧ GivesNumber new x

/-- The carbon parameter set of a run, with its flat response coefficients collected, gives parameter
`x` of the default carbon cycle: a number, or one of the two response functions. -/
def IRGives (q : Option (Dict (PyVal F))) (x : String) : Prop :=
  ∃ p new, q = some p ∧ Verif.Model.CarbonInst.processFlat p = .ok new ∧
    (GivesNumber new x ∨ (x = "rs_function" ∨ x = "rb_function") ∧ x ∈ Dict.keys new)

end
end Verif.Spec
