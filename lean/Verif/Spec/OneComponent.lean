import Verif.Spec.Complete

/-!
# Runs restricted to one component (C80)
-/

namespace Verif.Spec
open Verif.Py Verif.Model

section
variable {F : Type}

/-- The component a run is restricted to: the last `just_one` among the parameter sets given to the instance so far. -/
def lastAsked (sets : List (Option (Dict (PyVal F)))) : Option (PyVal F) :=
  (sets.filterMap (fun q => Dict.get? (q.getD []) "just_one")).getLast?

end
end Verif.Spec
