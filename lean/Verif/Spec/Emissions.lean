import Verif.Lemmas.AgreeConstruct
import Verif.Spec.History
import Verif.Spec.Complete
import Mathlib.Analysis.SpecialFunctions.Pow.Real

/-!
# What the emissions of a species reach (C97), independent of the proofs
-/

namespace Verif.Spec
open Verif.Py Verif.Model Verif.Model.Handler Verif.Model.Driver

variable {κ τ : Type}

/-- `g` is the state a run of an emission-driven instance ends with: built from the inputs `i`, with the years `ns` to `ne` and
emissions used from `es` on; `ps` are the parameters of earlier runs, `p` those of this run, `luc` the land use series. -/
structure Ran (cops : CarbonOps ℝ κ) (tops : ThermalOps ℝ τ) (i : Inputs ℝ) (pamset : Option (Dict (PyVal ℝ)))
    (ps : List (RunPams ℝ)) (p : RunPams ℝ) (luc : List ℝ) (ns es ne : ℤ) (g : Handler ℝ κ) : Prop where
  gases : CompleteGases i.gas
  emission : i.concRun = false
  tables : RunTables i.concIn i.emis (Dict.set (Factory.checkPamset pamset) "conc_run" (.bool i.concRun)) ns es ne
  prescribed : ∀ t, HasConc i.gas t → t ∈ i.concIn.cols
  ran : ∃ carb h0 d0 d d1 t, construct cops i pamset carb = .ok h0 ∧ d0.source = .handler h0 ∧ d0.luc = luc ∧
    d0.nystart = ns ∧ d0.nyend = ne ∧ After cops tops d0 ps d ∧ run cops tops d p = .ok (d1, t) ∧ d1.source = .handler g

/-- The concentration reported for a gas and a year. -/
def concOf (g : Handler ℝ κ) (k : String) (y : ℤ) : Option ℝ := ((reportConc g).lookup k).bind fun c => c y

/-- The two inputs differ at most in the emissions of the species in `K`. -/
structure OnlyEmissionsOf (K : List String) (i i' : Inputs ℝ) : Prop where
  gas : i'.gas = i.gas
  natCh4 : i'.natCh4 = i.natCh4
  natN2o : i'.natN2o = i.natN2o
  concIn : i'.concIn = i.concIn
  concRun : i'.concRun = i.concRun
  pertEm : i'.pertEm = i.pertEm
  pertForc : i'.pertForc = i.pertForc
  cols : i'.emis.cols = i.emis.cols
  idx : i'.emis.idx = i.emis.idx
  cell : ∀ c ∉ K, ∀ y, i'.emis.cell c y = i.emis.cell c y

/-- The species whose emissions can change the concentration of `k` (CO2 apart, which also reacts to temperature). -/
def concReach (k : String) : List String :=
  if k = "CH4" ∨ k = "TROP_O3" then ["CH4", "NOx", "CO", "NMVOC"] else [k]

/-- The species whose emissions can change the forcing of `k` (CO2 and N2O apart, whose forcings overlap with that of CO2). -/
def forcReach (k : String) : List String :=
  if k = "CH4" ∨ k = "STRAT_H2O" then ["CH4", "N2O", "NOx", "CO", "NMVOC"]
  else if k = "TROP_O3" then ["CH4", "NOx", "CO", "NMVOC"]
  else if k = "SO4_IND" then ["SO4_IND", "SO2"]
  else if k = "BMB_AEROS" then ["BMB_AEROS", "BMB_AEROS_OC"]
  else [k]

open Classical in
/-- The yearly loss rate of methane at `c` ppb, with the emissions `e`, in the documented lifetime modes. -/
noncomputable def methaneRate (mode : PyVal ℝ) (x : Gas ℝ) (e : String → ℤ → ℝ) (c : ℝ) (y : ℤ) : ℝ :=
  (if mode = .str "TAR" then
    1 / x.tau1 * (1 - 0.32 * (Real.log c - Real.log 1751) + 0.0042 * (e "NOx" y - e "NOx" 2000)
      - 0.000105 * (e "CO" y - e "CO" 2000) - 0.000315 * (e "NMVOC" y - e "NMVOC" 2000))
  else if mode = .str "CONSTANT_12" then 1 / 12
  else if mode = .str "WIGLEY" then 1 / x.tau1 * (c / 1700) ^ (-0.238 : ℝ)
  else 1 / x.tau1) + 1 / x.tau2 + 1 / x.tau3

end Verif.Spec
