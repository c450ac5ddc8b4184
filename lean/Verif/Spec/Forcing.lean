import Mathlib.Analysis.SpecialFunctions.Log.Basic
import Mathlib.Analysis.SpecialFunctions.Sqrt
import Mathlib.Data.List.Infix

/-!
# Specification of the forcing of every component

Written from the documentation of the model (Etminan et al. 2016 for the three main gases, Skeie et al.
2017 and the gas parameter table for the rest): what the effective radiative forcing of a component is,
given concentrations, emissions and parameters.
-/

namespace Verif.Spec

/-- The data the forcing of a year `y` depends on. -/
structure ForcingData where
  /-- concentrations by gas and year -/
  conc : String → ℤ → ℝ
  /-- emissions by species and year -/
  emis : String → ℤ → ℝ
  /-- radiative efficiency of the gas table -/
  alpha : String → ℝ
  /-- ratio of effective to stratospherically adjusted forcing of the gas table -/
  sarf : String → ℝ
  /-- parameters by name -/
  par : String → ℝ
  /-- land use forcing of the year -/
  landUse : ℝ
  /-- the start year and the year -/
  start : ℤ
  year : ℤ

/-- CO2 at `c` ppm, N2O at `n` ppb; `c0` and `n0` are the values of the start year. -/
noncomputable def co2Forcing (c c0 n n0 : ℝ) : ℝ :=
  (5.36 + 0.00072 * |c - c0| - 0.00000024 * (c - c0) ^ 2 - 0.00021 * ((n + n0) / 2)) * Real.log (c / c0)

/-- N2O at `n` ppb, with CO2 `c` and CH4 `m`. -/
noncomputable def n2oForcing (n n0 c c0 m m0 : ℝ) : ℝ :=
  (0.117 - 0.000008 * ((c + c0) / 2) + 0.0000042 * ((n + n0) / 2) - 0.0000049 * ((m + m0) / 2))
    * (Real.sqrt n - Real.sqrt n0)

/-- CH4 at `m` ppb, with N2O `n`. -/
noncomputable def ch4Forcing (m m0 n n0 : ℝ) : ℝ :=
  (0.043 - 0.0000013 * ((m + m0) / 2) - 0.0000082 * ((n + n0) / 2)) * (Real.sqrt m - Real.sqrt m0)

/-- Aerosols and their precursors: three names, and all names that begin with one of four codes. -/
def IsAerosol (k : String) : Prop :=
  k = "NMVOC" ∨ k = "NH3" ∨ k = "NOx" ∨
    ∃ p ∈ ["BC", "OC", "SO", "BM"], p.toList <+: k.toList

/-- The emission and the sensitivity parameter of the aerosols without own efficiency. -/
def aerosolSource (k : String) : Option (String × String) :=
  if k = "SO2" then some ("SO2", "qdirso2")
  else if k = "SO4_IND" then some ("SO2", "qindso2")
  else if k = "BC" then some ("BC", "qbc")
  else if k = "OC" then some ("OC", "qoc")
  else if k = "BMB_AEROS" then some ("BMB_AEROS_OC", "qbmb")
  else if k = "NMVOC" then some ("NMVOC", "qnmvoc")
  else if k = "NH3" then some ("NH3", "qnh3")
  else if k = "NOx" then some ("NOx", "qnox")
  else none

namespace ForcingData
variable (D : ForcingData)

/-- Change of an emission since the start year. -/
noncomputable def emisChange (k : String) : ℝ := D.emis k D.year - D.emis k D.start

/-- Forcing of an aerosol. -/
noncomputable def aerosol (k : String) : ℝ :=
  if D.alpha k ≠ 0 then D.alpha k * D.emisChange k
  else match aerosolSource k with
    | some (e, q) => D.par q * D.emisChange e
    | none => 0

/-- Forcing of tropospheric ozone: scaled between the start year and 30 DU. -/
noncomputable def ozone : ℝ :=
  let o := D.conc "TROP_O3"
  if o D.start = 30 then 0 else D.par "qo3" * ((o D.year - o D.start) / (30 - o D.start))

/-- Forcing of methane. -/
noncomputable def methane : ℝ :=
  D.sarf "CH4" * ch4Forcing (D.conc "CH4" D.year) (D.conc "CH4" D.start) (D.conc "N2O" D.year) (D.conc "N2O" D.start)

open Classical in
/-- Forcing of a component. -/
noncomputable def forcing (k : String) : ℝ :=
  if k = "CO2" then
    D.sarf "CO2" * co2Forcing (D.conc "CO2" D.year) (D.conc "CO2" D.start) (D.conc "N2O" D.year) (D.conc "N2O" D.start)
  else if k = "CH4" then D.methane
  else if k = "N2O" then
    D.sarf "N2O" * n2oForcing (D.conc "N2O" D.year) (D.conc "N2O" D.start) (D.conc "CO2" D.year) (D.conc "CO2" D.start)
      (D.conc "CH4" D.year) (D.conc "CH4" D.start)
  else if k = "LANDUSE" then D.landUse
  else if IsAerosol k then D.aerosol k
  else if D.alpha k ≠ 0 then D.sarf k * D.alpha k * (D.conc k D.year - D.conc k D.start)
  else if k = "TROP_O3" then D.sarf "TROP_O3" * D.ozone
  else if k = "STRAT_H2O" then D.sarf "STRAT_H2O" * (D.par "qh2o_ch4" * D.methane)
  else 0

/-- The concentration of tropospheric ozone, from methane and its precursors; `ref` is the reference
year and `m0` the prescribed methane concentration of that year. -/
noncomputable def ozoneConc (ref : ℤ) (m0 : ℝ) : ℝ :=
  30 + 6.7 * (Real.log (D.conc "CH4" D.year) - Real.log m0)
    + 0.17 * (D.emis "NOx" D.year - D.emis "NOx" ref)
    + 0.0014 * (D.emis "CO" D.year - D.emis "CO" ref)
    + 0.0042 * (D.emis "NMVOC" D.year - D.emis "NMVOC" ref)

end ForcingData
end Verif.Spec
