import Verif.Model.Driver
import Verif.Model.PubUtils
import Verif.Py.RealInst

/-!
# What one gas does (C94), independent of the proofs
-/

namespace Verif.Spec
open Verif.Py Verif.Model Verif.Model.Handler Verif.Model.Driver

/-- The two sets of concentration-driven inputs differ in the prescribed concentrations of `k` only. -/
structure OnlyConcOf (k : String) (i i' : Inputs ℝ) : Prop where
  concRun : i.concRun = true
  concRun' : i'.concRun = true
  gas : i'.gas = i.gas
  natCh4 : i'.natCh4 = i.natCh4
  natN2o : i'.natN2o = i.natN2o
  emis : i'.emis = i.emis
  pertEm : i'.pertEm = i.pertEm
  pertForc : i'.pertForc = i.pertForc
  cols : i'.concIn.cols = i.concIn.cols
  idx : i'.concIn.idx = i.concIn.idx
  others : ∀ c, c ≠ k → ∀ y, i'.concIn.cell c y = i.concIn.cell c y

/-- A row of the gas table with a concentration unit that is not one of the three main gases, with this efficiency, and whose
name counts no chlorine and no bromine atoms. -/
structure PlainGas (gas : Dict (Gas ℝ)) (k : String) (x : Gas ℝ) : Prop where
  row : gas.get? k = some x
  unit : x.concUnit ≠ "-"
  notMain : k ≠ "CO2" ∧ k ≠ "CH4" ∧ k ≠ "N2O"
  notOzone : k ≠ "STRAT_O3"
  notTotal : k ≠ "Total_forcing"
  notSulfate : k ≠ "SO2" ∧ k ≠ "SO4_DIR"
  noHalogen : PubUtils.halogens k = .ok (none, none)

/-- The documented effect of other concentrations of a gas on the forcing of year `y`: efficiency times the ERF factor times the
difference of the changes since the start year. -/
noncomputable def gasEffect (x : Gas ℝ) (v v' : ℤ → ℝ) (ns y : ℤ) : ℝ :=
  x.sarf * x.alpha * ((v' y - v' ns) - (v y - v ns))

/-- The two drivers have the same years and the same land-use, solar and volcanic series. -/
structure SameSetting {κ : Type} (d d' : Driver ℝ κ) : Prop where
  first : d'.nystart = d.nystart
  last : d'.nyend = d.nyend
  luc : d'.luc = d.luc
  sun : d'.sun = d.sun
  north : d'.volcN = d.volcN
  south : d'.volcS = d.volcS

end Verif.Spec
