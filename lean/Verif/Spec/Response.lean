import Verif.Model.CarbonInst

/-!
# The response functions a user gave a carbon cycle model

A model object is made with a parameter set; each later run may bring another one (or none). A parameter set gives a response
function as lists of coefficients and timescales, or as numbered keys, which mean the same lists (C27).
-/

namespace Verif.Spec.Response
open Verif.Py Verif.Model Verif.Model.CarbonInst

variable {F : Type} [Add F] [Sub F] [Mul F] [Div F] [Neg F] [OfScientific F] [LT F] [DecidableLT F] [MathFn F]

/-- The life of a default carbon cycle model: made, then reset for new runs and stepped through years in any order. The list
holds the parameter sets it was made and reset with, the latest last. -/
inductive Life (time : Dict (PyVal F)) : List (Option (Dict (PyVal F))) → IR F → Prop
  | made {p : Dict (PyVal F)} {k : IR F} : Dict.WF p → irOps.create time p = .ok k → Life time [some p] k
  | reset {ps : List (Option (Dict (PyVal F)))} {k k' : IR F} (p : Option (Dict (PyVal F))) : Life time ps k →
      irOps.reset k p = .ok k' → Life time (ps ++ [p]) k'
  | year {ps : List (Option (Dict (PyVal F)))} {k : IR F} {r : F × IR F} (yr : Int) (em : F) (fb : Option (Dict F)) :
      Life time ps k → irOps.step k yr em fb = .ok r → Life time ps r.2

omit [Add F] [Sub F] [Mul F] [Div F] [Neg F] [OfScientific F] [LT F] [DecidableLT F] [MathFn F] in
/-- The parameter set gives the response function `key`, with value `v`. -/
def Gives (p : Option (Dict (PyVal F))) (key : String) (v : PyVal F) : Prop :=
  ∃ d new, p = some d ∧ processFlat d = .ok new ∧ Dict.get? new key = some v

/-- The latest parameter set that gives the response function `key` gives it the value `v`. -/
def LatestGives (ps : List (Option (Dict (PyVal F)))) (key : String) (v : PyVal F) : Prop :=
  ∃ as q bs, ps = as ++ q :: bs ∧ Gives q key v ∧ ∀ b ∈ bs, ∀ w, ¬ Gives b key w

/-- No parameter set gives the response function `key`. -/
def NeverGiven (ps : List (Option (Dict (PyVal F)))) (key : String) : Prop := ∀ q ∈ ps, ∀ w, ¬ Gives q key w

end Verif.Spec.Response
