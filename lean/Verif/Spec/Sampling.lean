import Mathlib.Data.Real.Basic
import Mathlib.Logic.Equiv.Defs
import Verif.Py.Dict
import Verif.Spec.Routing

/-! # Specification for C87: what a sample of a parameter interval is -/

namespace Verif.Spec
open Verif.Py

/-- The first `n` values lie one in each of the `n` equal parts of `[lo, hi]`. -/
def OneInEach (n : ℕ) (lo hi : ℝ) (x : ℕ → ℝ) : Prop :=
  ∃ part : Equiv.Perm (Fin n), ∀ i : Fin n,
    lo + (part i : ℕ) * ((hi - lo) / n) ≤ x i ∧ x i ≤ lo + ((part i : ℕ) + 1) * ((hi - lo) / n)

/-- Parameter `k` of a distribution is sampled: it has no fixed value and, in a distribution for
forcing runs, it is a parameter of the thermal model. -/
def Sampled {A B : Type} (distro : Dict A) (fixed : Dict B) (forc : Bool) (k : String) : Prop :=
  k ∈ Dict.keys distro ∧ k ∉ Dict.keys fixed ∧ (forc = true → k ∈ thermalDocumented)

end Verif.Spec
