import Verif.Spec.LookAhead
import Verif.Spec.Inputs

/-!
# Specification: runs of different length

Two parameter sets are the same but for the last year; a carbon cycle model does not look at the last year.
-/

namespace Verif.Spec
open Verif.Py Verif.Py.Dict Verif.Model Verif.Model.Handler

/-- Parameter sets that have the same entries, except for the last year of the run. -/
def SameButEnd {α : Type} (p p' : Dict α) : Prop := ∀ k, k ≠ "nyend" → get? p' k = get? p k

/-- What a carbon cycle model answers does not depend on the last year it is constructed for: there is a relation between
the two model objects that holds after construction, is kept by resets and years, and gives equal concentrations. -/
def EndBlind {F κ : Type} (cops : CarbonOps F κ) : Prop :=
  ∃ C : κ → κ → Prop,
    (∀ p p' q k k', WF p → WF p' → SameButEnd p p' → cops.create p q = .ok k → cops.create p' q = .ok k' → C k k') ∧
    (∀ k k' q c c', C k k' → cops.reset k q = .ok c → cops.reset k' q = .ok c' → C c c') ∧
    ∀ k k' y em fb r r', C k k' → cops.step k y em fb = .ok r → cops.step k' y em fb = .ok r' → r'.1 = r.1 ∧ C r.2 r'.2

/-- The emission period of a run has begun before its last year, in the short run as in the long one; or it begins in neither;
or the run is driven by concentrations. -/
def SameRegime (concRun : Bool) (emstart nyend nyend' : Int) : Prop :=
  concRun = true ∨ emstart < nyend ∨ nyend' ≤ emstart

/-! ## Configurations -/

open Verif.Model.InputHandler Verif.Spec.Inputs

/-- The same configuration with another last year. -/
def withEnd {F : Type} (c : Dict (CfgVal F)) (last : Int) : Dict (CfgVal F) := Dict.set c "nyend" (.val (.int last))

/-- The table configured for an input has the years from `first` to `last`, without gaps. -/
def TableCovers {F : Type} (fs : Files F) (c : Dict (CfgVal F)) (what : String) (first last : Int) : Prop :=
  ∃ (t : Frame F) (i j : Int),
    ((∃ p, FileIs c what p ∧ fs.table p = .ok t) ∨ (NoFile c what ∧ DataIs c what (.table t))) ∧
    t.idx = pyRange i j ∧ i ≤ first ∧ last < j

/-- The gas table configured. -/
def GasTable {F : Type} (fs : Files F) (c : Dict (CfgVal F)) (t : Dict (Gas F × String)) : Prop :=
  (∃ p, FileIs c "gaspam" p ∧ fs.gaspam p = .ok t) ∨ (NoFile c "gaspam" ∧ DataIs c "gaspam" (.gases t))

/-- The first year of emissions: configured, or 1850. -/
def EmissionStart {F : Type} (c : Dict (CfgVal F)) (es : Int) : Prop :=
  get? c "emstart" = some (.val (.int es)) ∨ get? c "emstart" = none ∧ es = 1850

end Verif.Spec
