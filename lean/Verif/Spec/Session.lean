import Verif.Model.Session

/-! # Histories of calls on one instance (C89), independent of the proofs -/

namespace Verif.Spec
open Verif.Py Verif.Model.Handler Verif.Model.Driver Verif.Model.CarbonOut Verif.Model.Session

section
variable {F κ τ : Type} [Add F] [Sub F] [Mul F] [Div F] [Neg F] [OfScientific F] [LT F] [DecidableLT F]
  [MathFn F]

/-- The instance after the calls `cs`, one after the other, starting from a new instance (no results). All runs succeed. -/
inductive Used (fmt : F → String) (cwd : String) (cops : CarbonOps F κ) (oops : OutputOps F κ) (tops : ThermalOps F τ)
    (d0 : Driver F κ) : List (Call F) → Session F κ → Prop
  | fresh : Used fmt cwd cops oops tops d0 [] ⟨{ d0 with results := [] }, []⟩
  | next {cs c s s1} : Used fmt cwd cops oops tops d0 cs s → callRun fmt cwd cops oops tops s c = .ok s1 →
      Used fmt cwd cops oops tops d0 (cs ++ [c]) s1

/-- Two results dictionaries with the same entries. -/
def SameEntries (r r' : Verif.Model.Reader.Results F) : Prop :=
  (∀ k, r'.tables.get? k = r.tables.get? k) ∧ ∀ k, r'.series.get? k = r.series.get? k

end
end Verif.Spec
