import Verif.Model.Driver

/-!
# Complete inputs (C63), independent of the proofs

What a user has to provide so that an emission or concentration run finds every number it reads.
-/

namespace Verif.Spec
open Verif.Py Verif.Model Verif.Model.Handler Verif.Model.Driver

section
variable {F κ τ : Type}

/-- The table has a row for every year of `a`, ..., `b`, in order and without gaps. -/
def CoversYears (t : Frame F) (a b : Int) : Prop := ∃ i j, t.idx = pyRange i j ∧ i ≤ a ∧ b < j

/-- The component of the gas table has a concentration. -/
def HasConc (gas : Dict (Gas F)) (t : String) : Prop := ∃ g, gas.get? t = some g ∧ g.concUnit ≠ "-"

/-- The component of the gas table has no concentration. -/
def NoConc (gas : Dict (Gas F)) (t : String) : Prop := ∃ g, gas.get? t = some g ∧ g.concUnit = "-"

/-- The name is an aerosol or aerosol precursor: `NMVOC`, `NH3`, `NOx`, or a name beginning with `BC`, `OC`,
`SO` or `BM`. -/
def AerosolName (t : String) : Prop :=
  t ∈ ["NMVOC", "NH3", "NOx"] ∨ ∃ p ∈ ["BC", "OC", "SO", "BM"], p.toList <+: t.toList

/-- The emission column that drives an aerosol without forcing efficiency of its own. -/
def drivingEmission : String → Option String
  | "SO2" => some "SO2"
  | "SO4_IND" => some "SO2"
  | "OC" => some "OC"
  | "BC" => some "BC"
  | "BMB_AEROS" => some "BMB_AEROS_OC"
  | "NMVOC" => some "NMVOC"
  | "NH3" => some "NH3"
  | "NOx" => some "NOx"
  | _ => none

/-- The gas table names every component once, contains the three main gases (with concentrations) and
stratospheric ozone; names with chlorine or bromine can be read and have concentrations; of the components
without concentration only aerosols, land use and ozone may have a forcing efficiency (`ALPHA`). -/
structure CompleteGases [OfScientific F] [MathFn F] (gas : Dict (Gas F)) : Prop where
  once : gas.keys.Nodup
  notTotal : "Total_forcing" ∉ gas.keys
  main : ∀ t ∈ ["CO2", "CH4", "N2O"], HasConc gas t
  stratO3 : "STRAT_O3" ∈ gas.keys
  names : ∀ t ∈ gas.keys, ∃ h, PubUtils.halogens t = .ok h ∧ (h ≠ (none, none) → HasConc gas t)
  efficiency : ∀ t g, gas.get? t = some g → g.concUnit = "-" → ¬ AerosolName t →
    t ∉ ["LANDUSE", "TROP_O3", "STRAT_O3"] → isEq g.alpha 0.0 = true

/-- The tables of a run from `ns` to `ne` with emissions from `es` on and reference year `ref`. -/
structure CompleteTables [OfScientific F] [MathFn F] (i : Inputs F) (ns es ne ref : Int) : Prop where
  order : ns ≤ ne
  emStart : ns ≤ es
  start : i.concRun = false → ns < es
  concRows : CoversYears i.concIn ns ne
  concCols : ∀ t, HasConc i.gas t → t ∈ i.concIn.cols
  emisRows : CoversYears i.emis ns ne
  emisCo2 : i.concRun = false → "CO2_FF" ∈ i.emis.cols ∧ "CO2_AFOLU" ∈ i.emis.cols
  emisGas : i.concRun = false → ∀ t, HasConc i.gas t → t ≠ "CO2" → t ∈ i.emis.cols
  aerosolAlpha : ∀ t g, i.gas.get? t = some g → g.concUnit = "-" → AerosolName t → isEq g.alpha 0.0 = false →
    t ∈ i.emis.cols
  aerosolRef : ∀ t g e, i.gas.get? t = some g → g.concUnit = "-" → AerosolName t → isEq g.alpha 0.0 = true →
    drivingEmission t = some e → e ∈ i.emis.cols
  ozone : "TROP_O3" ∈ i.gas.keys → (∀ c ∈ ["NOx", "CO", "NMVOC"], c ∈ i.emis.cols) ∧ ref ∈ i.emis.idx ∧
    ref ∈ i.concIn.idx
  methane : i.concRun = false → (∀ c ∈ ["NOx", "CO", "NMVOC"], c ∈ i.emis.cols) ∧ (2000 : Int) ∈ i.emis.idx
  natural : i.concRun = false → "CH4" ∈ i.natCh4.cols ∧ "N2O" ∈ i.natN2o.cols ∧
    ∀ y, es ≤ y → y ≤ ne → y ∈ i.natCh4.idx ∧ y ∈ i.natN2o.idx
  pertEm : ∀ rows, i.pertEm = some rows → ∀ r ∈ rows, r.year ∈ i.emis.idx ∧
    (r.component ∈ i.emis.cols ∨ r.component = "CO2" ∧ "CO2_FF" ∈ i.emis.cols)
  pertForc : ∀ rows, i.pertForc = some rows → ∀ r ∈ rows, ns ≤ r.year ∧ r.year ≤ ne

/-- The series of the driver have a row for every year. -/
structure CompleteSeries (d : Driver F κ) : Prop where
  sun : d.nyend - d.nystart < d.sun.length
  luc : d.nyend - d.nystart < d.luc.length
  volcN : d.nyend - d.nystart < d.volcN.length
  volcS : d.nyend - d.nystart < d.volcS.length
  months : ∀ (k : Nat) (vn vs : List F), d.volcN[k]? = some vn → d.volcS[k]? = some vs →
    vn.length = vs.length ∧ vn ≠ []

/-- The carbon cycle keeps working: in every state with `P`, a year of the run can be stepped and leads to
a state with `P`. -/
def CarbonWorks (cops : CarbonOps F κ) (P : κ → Prop) (ns ne : Int) : Prop :=
  ∀ k y em fb, ns ≤ y → y ≤ ne → P k → ∃ r, cops.step k y em fb = .ok r ∧ P r.2

/-- The carbon cycle can be reset for a run with these parameters. -/
def CarbonResets (cops : CarbonOps F κ) (P : κ → Prop) (q : Option (Dict (PyVal F))) : Prop :=
  ∀ k, P k → ∃ k', cops.reset k q = .ok k' ∧ P k'

/-- The thermal model can be created and keeps working: in every state with some property `Q` (which the created model
has) a year with any forcing leads to a state with `Q`. -/
def ThermalWorks (tops : ThermalOps F τ) (udm : Option (Dict (PyVal F))) : Prop :=
  ∃ Q : τ → Prop, (∃ t, tops.create udm = .ok t ∧ Q t) ∧ (∀ t w, Q t → Q (tops.setFeedback t w)) ∧
  ∀ t fn fs (vn vs : List F), Q t → vn.length = vs.length → vn ≠ [] →
    ∃ values t', tops.budget t fn fs vn vs = .ok (values, t') ∧ Q t' ∧ ∀ p ∈ tops.outputs, ∃ v, values.get? p.2 = some v

/-- The carbon parameter set gives no response function, neither as such nor by coefficients. -/
def NoResponse (p : Dict (PyVal F)) : Prop :=
  ∀ key ∈ Dict.keys p, key ≠ "rs_function" ∧ key ≠ "rb_function" ∧
    ∀ pre ∈ ["rb_coef", "rb_tim", "rs_coef", "rs_tim"], ¬ (pre.toList <+: key.toList)

/-- A component a run can be restricted to: a row of the gas table whose forcing is computed year by year, that is
one without a concentration unit or one of the three main gases. -/
def YearByYear (gas : Dict (Gas F)) (k : String) : Prop :=
  ∃ x, gas.get? k = some x ∧ (x.concUnit = "-" ∨ k = "CO2" ∨ k = "CH4" ∨ k = "N2O") ∧ k ≠ "STRAT_O3" ∧ k ≠ "CO2.1"

/-- If the parameter set restricts a run to one component, it names one of those above, or the total. -/
def OneComponent (gas : Dict (Gas F)) (p : Option (Dict (PyVal F))) : Prop :=
  ∀ v, ("just_one", v) ∈ p.getD [] → ∃ k, v = .str k ∧ (k = "Total_forcing" ∨ YearByYear gas k)

/-- A run with these parameter sets: the thermal model and the carbon cycle accept their parameters, the
reference year is `ref`, and a single component can be asked for if it is one computed year by year. -/
structure CompleteRun [Neg F] [Div F] [OfScientific F] (cops : CarbonOps F κ) (tops : ThermalOps F τ) (P : κ → Prop) (ref : Int)
    (gas : Dict (Gas F)) (p : RunPams F) : Prop where
  thermal : ThermalWorks tops p.udm
  carbon : CarbonResets cops P p.carbon
  refYr : pamI (Factory.checkPamset p.emiconc) "ref_yr" = .ok ref
  just : OneComponent gas p.emiconc

end
end Verif.Spec
