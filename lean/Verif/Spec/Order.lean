import Verif.Model.Driver
import Verif.Props.C59
import Mathlib.Data.List.Forall2

/-! # One run reports no smaller forcing than another (C98) -/

namespace Verif.Spec
open Verif.Model Verif.Model.Handler Verif.Model.Driver Verif.Props

variable {κ : Type}

/-- In this year nothing is smaller in the second run than in the first: the reported components of the year (the columns of the forcing table, apart
from the total), perturbations of the total itself, and the solar and volcanic forcing. -/
structure NoWeaker (i i' : Inputs ℝ) (d d' : Driver ℝ κ) (g g' : Handler ℝ κ) (y : ℤ) : Prop where
  columns : List.Forall₂ (fun c c' => c'.1 = c.1 ∧
      (c.1 ≠ "Total_forcing" → ∃ v v', c.2 y = some v ∧ c'.2 y = some v' ∧ v ≤ v'))
    (reportForcing g d.nystart) (reportForcing g' d'.nystart)
  total : pertOf i.pertForc "Total_forcing" y ≤ pertOf i'.pertForc "Total_forcing" y
  sun : ∀ s s', d.sun[(y - d.nystart).toNat]? = some s → d'.sun[(y - d.nystart).toNat]? = some s' → s ≤ s'
  north : ∀ v v', d.volcN[(y - d.nystart).toNat]? = some v → d'.volcN[(y - d.nystart).toNat]? = some v' →
    List.Forall₂ (· ≤ ·) v v'
  south : ∀ v v', d.volcS[(y - d.nystart).toNat]? = some v → d'.volcS[(y - d.nystart).toNat]? = some v' →
    List.Forall₂ (· ≤ ·) v v'

end Verif.Spec
