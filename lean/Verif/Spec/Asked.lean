import Verif.Spec.History
import Verif.Model.CarbonOut

/-! # Histories in which the carbon cycle table was also asked for (C73) -/

namespace Verif.Spec
open Verif.Py Verif.Model.Handler Verif.Model.Driver Verif.Model.CarbonOut

section
variable {F κ τ : Type} [Add F] [Sub F] [Mul F] [Div F] [Neg F] [OfScientific F] [LT F] [DecidableLT F]
  [MathFn F]

/-- The instance after running the parameter sets `ps` one after the other, the carbon cycle table having been asked for
any number of times in between. -/
inductive AfterAsked (cops : CarbonOps F κ) (oops : OutputOps F κ) (tops : ThermalOps F τ) (d0 : Driver F κ) :
    List (RunPams F) → Driver F κ → Prop
  | fresh : AfterAsked cops oops tops d0 [] d0
  | next {ps p d d1 t} : AfterAsked cops oops tops d0 ps d → run cops tops d p = .ok (d1, t) →
      AfterAsked cops oops tops d0 (ps ++ [p]) d1
  | asked {ps d d1 b tab} : AfterAsked cops oops tops d0 ps d → carbonTable oops tops d b = .ok (tab, d1) →
      AfterAsked cops oops tops d0 ps d1

end
end Verif.Spec
