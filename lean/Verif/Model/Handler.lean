import Verif.Py.Frame
import Verif.Model.Perturb
import Verif.Model.PubUtils
import Verif.Model.Factory

/-!
# Model of `/repo/src/ciceroscm/concentrations_emissions_handler.py`

Line numbers refer to that file unless another file is named. The carbon cycle is a parameter
(`CarbonOps`), so everything proved here holds for both carbon cycle models (and any other).

Simplifications: the entries `forc_pert`, `cl_dict`, `br_dict` of the parameter dictionary are
fields of the handler (`check_pamset` drops such keys from a user's parameter set, line 80, so they
can only come from the constructor); log messages are not modelled; array indices `yr - years[0]`
below zero raise `IndexError` in the model (Python would wrap around; a run never produces them,
ciceroscm.py:277).
-/

namespace Verif.Model.Handler
open Verif.Py Verif.Model

/-- One row of the gas parameter table (`df_gas`), the columns the handler reads. -/
structure Gas (F : Type) where
  concUnit : String
  alpha : F
  beta : F
  tau1 : F
  tau2 : F
  tau3 : F
  natEm : F
  sarf : F

/-- The carbon cycle model as the handler uses it: construction, one year, reset. The state is
threaded explicitly. `step` is `co2em2conc(yr, emissions, feedback_dict)`. -/
structure CarbonOps (F κ : Type) where
  create : Dict (PyVal F) → Dict (PyVal F) → Except PyErr κ
  step : κ → Int → F → Option (Dict F) → Except PyErr (F × κ)
  reset : κ → Option (Dict (PyVal F)) → Except PyErr κ

/-- What the input handler delivers to the constructor. -/
structure Inputs (F : Type) where
  gas : Dict (Gas F)
  natCh4 : Frame F
  natN2o : Frame F
  concIn : Frame F
  emis : Frame F
  concRun : Bool
  pertEm : Option (List (PertRow F))
  pertForc : Option (List (PertRow F))

/-- A labelled row of a frame: year and value per column. -/
abbrev Row (F : Type) := Int × (String → F)

/-- `self.precalc_dict`: the gases, their concentrations (rows in order), the forcing table without
`TOT_vanilla`, and the other tracers. -/
structure Precalc (F : Type) where
  gases : List String
  conc : List (Row F)
  erf : Table F
  spicy : List String

/-- The attributes of `ConcentrationsEmissionsHandler`. `conc tracer yr` is `self.conc[tracer][yr]`
(`none`: no such key), `forc tracer i` is `self.forc[tracer][i]`; the keys of the two dictionaries
are kept in insertion order. -/
structure Handler (F κ : Type) where
  gas : Dict (Gas F)
  natCh4 : Frame F
  natN2o : Frame F
  concIn : Frame F
  emis : Frame F
  pam : Dict (PyVal F)
  pert : Option (List (PertRow F))
  years : List Int
  prec : Precalc F
  carbon : κ
  concKeys : List String
  conc : String → Int → Option F
  forcKeys : List String
  forc : String → Nat → F

section
variable {F κ : Type} [Add F] [Sub F] [Mul F] [Div F] [Neg F] [OfScientific F] [LT F] [DecidableLT F]
  [MathFn F]

/-! ## Reading parameters -/

/-- Truth value of a Python object. -/
def truthy : PyVal F → Bool
  | .int i => i ≠ 0
  | .flt x => !(isEq x 0.0)
  | .bool b => b
  | .str s => s ≠ ""
  | .none => false
  | .npint i => i ≠ 0
  | .farr xs => xs ≠ []
  | .rfun _ _ => true
  | .obj _ => true

/-- A parameter used as a number. -/
def pamF (p : Dict (PyVal F)) (k : String) : Except PyErr F := do
  match (← p.getE k).toF with
  | some x => .ok x
  | none => .error .typeError

/-- A parameter used as a year (simplification: a float is a `TypeError`; the code would accept an
integral float in comparisons but not as a slice bound). -/
def pamI (p : Dict (PyVal F)) (k : String) : Except PyErr Int := do
  match (← p.getE k).toI with
  | some x => .ok x
  | none => .error .typeError

/-- A parameter used as a flag. -/
def pamB (p : Dict (PyVal F)) (k : String) : Except PyErr Bool := do
  return truthy (← p.getE k)

/-- line 104. -/
def pamsCantChange : List String := ["idtm", "nystart", "nyend", "emstart", "conc_run"]

/-- One turn of the loop at lines 105-110. -/
def keepOldStep (old : Dict (PyVal F)) (new : Dict (PyVal F)) (pam : String) :
    Except PyErr (Dict (PyVal F)) :=
  match new.get? pam with
  | none => .ok new
  | some v => do
    let o ← old.getE pam
    if PyVal.pyEq v o then .ok new else .ok (Dict.set new pam o)

/-- Lines 111-113. -/
def addMissing (old new : Dict (PyVal F)) : Dict (PyVal F) :=
  old.foldl (fun n p => if n.has p.1 then n else Dict.set n p.1 p.2) new

/-- `check_pamset_consistency`, lines 84-114. -/
def checkPamsetConsistency (old new : Dict (PyVal F)) : Except PyErr (Dict (PyVal F)) := do
  let new ← pamsCantChange.foldlM (keepOldStep old) new
  return addMissing old new

/-- The aerosols with a global parameter, lines 252-256. -/
def globalAerosols : List (String × String) := [("SO2", "qdirso2"), ("BC", "qbc"), ("OC", "qoc")]

/-- `avoid_regional_double_counting`, lines 248-259. -/
def avoidRegionalDoubleCounting (gases : List String) (pam : Dict (PyVal F)) : Dict (PyVal F) :=
  globalAerosols.foldl (fun p a =>
    if gases.any (fun comp => (a.1 ++ "_").toList.isPrefixOf comp.toList) then
      Dict.set p a.2 (.flt 0.0) else p) pam

/-! ## Gases computed ahead of the run -/

/-- Gases kept in `df_gases_vanilla`, lines 220-226. `drop` raises `KeyError` for a missing label. -/
def vanillaGases (gas : Dict (Gas F)) : Except PyErr (List String) :=
  if gas.has "CO2" ∧ gas.has "CH4" ∧ gas.has "N2O" then
    .ok ((gas.filter (fun g => g.2.concUnit ≠ "-" ∧ g.1 ∉ ["CO2", "CH4", "N2O"])).map Prod.fst)
  else .error .keyError

/-- `df[cols]`: `KeyError` unless all columns exist. -/
def hasCols (t : Frame F) (cols : List String) : Except PyErr Unit :=
  if cols.all (fun c => c ∈ t.cols) then .ok () else .error .keyError

/-- `df.index[0]`. -/
def firstLabel (t : Frame F) : Except PyErr Int :=
  match t.idx with
  | y :: _ => .ok y
  | [] => .error .indexError

/-- `df.iloc[a - df.index[0] : b - df.index[0]]` as labelled rows. -/
def ilocYears (t : Frame F) (a b : Int) : Except PyErr (List (Row F)) := do
  let i0 ← firstLabel t
  return (pySlice t.idx (a - i0) (b - i0)).map (fun y => (y, fun c => t.cell c y))

/-- One year of a gas computed ahead, lines 303-314: `emis`, previous concentration. -/
def vanillaUpdate (g : Gas F) (emis prev : F) : F :=
  let q := 1.0 / g.tau1
  (emis + g.natEm) / g.beta / q * (1.0 - MathFn.exp (-q)) + prev * MathFn.exp (-q)

/-- The loop at lines 305-315: rows of emissions turned into rows of concentrations. -/
def vanillaLoop (gas : String → Gas F) : (String → F) → List (Row F) → List (Row F)
  | _, [] => []
  | prev, (y, em) :: rest =>
    let now : String → F := fun c => vanillaUpdate (gas c) (em c) (prev c)
    (y, now) :: vanillaLoop gas now rest

/-- Gas parameters by name (used for names that are rows of the table). -/
def gasOr (gas : Dict (Gas F)) (c : String) : Gas F :=
  (gas.get? c).getD ⟨"", 0.0, 0.0, 0.0, 0.0, 0.0, 0.0, 0.0⟩

/-- Lines 290-321 once the slices are taken: `conc_in_vanilla.iloc[-1]` raises `IndexError` for an
empty slice (when there is at least one emission row). Simplification: an empty emission slice gives the
concentrations back (`pandas` may refuse to concatenate it). -/
def vanillaAppend (gas : String → Gas F) (conc emis : List (Row F)) : Except PyErr (List (Row F)) :=
  match conc.getLast?, emis with
  | _, [] => .ok conc
  | none, _ :: _ => .error .indexError
  | some last, _ => .ok (conc ++ vanillaLoop gas last.2 emis)

/-- `_precalculate_concentrations_vanilla_gases`, lines 280-321. -/
def precalcConc (gas : Dict (Gas F)) (concIn emis : Frame F) (pam : Dict (PyVal F))
    (gases : List String) : Except PyErr (List (Row F)) := do
  let _ ← hasCols concIn gases
  let concRun ← pamB pam "conc_run"
  let nystart ← pamI pam "nystart"
  let nyend ← pamI pam "nyend"
  let emstart ← pamI pam "emstart"
  if concRun ∨ nyend ≤ emstart then
    ilocYears concIn nystart (nyend + 1)
  else do
    let conc ← ilocYears concIn nystart emstart
    let _ ← hasCols emis gases
    let em ← ilocYears emis emstart (nyend + 1)
    vanillaAppend (gasOr gas) conc em

/-- `_precalculate_erf_vanilla_gases`, lines 261-278: rows of forcing. -/
def precalcErf (gas : String → Gas F) (conc : List (Row F)) : Except PyErr (List (Row F)) :=
  match conc with
  | [] => .error .indexError
  | r0 :: _ => .ok (conc.map (fun r =>
      (r.1, fun c => (gas c).sarf * (gas c).alpha * (r.2 c - r0.2 c))))

/-- `conc[comp][yr]` of the pre-computed concentrations. -/
def rowAt (gases : List String) (rows : List (Row F)) (c : String) (y : Int) : Except PyErr F :=
  if c ∈ gases then
    match rows.lookup y with
    | some r => .ok (r c)
    | none => .error .keyError
  else .error .keyError

/-- A term of the chlorine sum, lines 405-408. -/
def clTerm (gases : List String) (rows : List (Row F)) (y0 y : Int) (p : String × Int) :
    Except PyErr F := do
  let num := (← rowAt gases rows p.1 y) - (← rowAt gases rows p.1 y0)
  return MathFn.sign num * MathFn.pow (ofInt p.2 * MathFn.abs num) 1.7

/-- A term of the bromine sum, lines 409-410. -/
def brTerm (gases : List String) (rows : List (Row F)) (y0 y : Int) (p : String × Int) :
    Except PyErr F := do
  return ofInt p.2 * ((← rowAt gases rows p.1 y) - (← rowAt gases rows p.1 y0))

/-- `calculate_strat_quantities` for one element of an array of years, lines 399-411 (the array call
at line 325; for an array the shortcut at lines 400-402 does not apply). -/
def stratQuantities (cl br : Dict Int) (gases : List String) (rows : List (Row F)) (y0 y : Int) :
    Except PyErr (F × F) := do
  let sumcl ← cl.mapM (clTerm gases rows y0 y)
  let sumbr ← br.mapM (brTerm gases rows y0 y)
  return (fsum sumcl, fsum sumbr)

/-- Lines 328-337: stratospheric ozone forcing from the two sums. -/
def stratO3Forcing (sarf : F) (s : F × F) : F :=
  -(0.05 / 0.17377 * (0.000552 * s.1 + 3.048 * s.2)) / 1000.0 * sarf

/-- `_add_precalculated_strat_o3`, lines 323-338, as a list of values by position: zeros in the first
three years, then the values of `years[:-3]`. -/
def stratO3Series (cl br : Dict Int) (gases : List String) (rows : List (Row F)) (years : List Int)
    (sarf : F) : Except PyErr (List F) := do
  match years with
  | [] => .error .indexError
  | y0 :: _ => do
    let late ← (years.take (years.length - 3)).mapM (stratQuantities cl br gases rows y0)
    return ((List.replicate (min 3 years.length) ((0.0 : F), (0.0 : F)) ++ late).map
      (stratO3Forcing sarf))

/-- Line 338: the column is assigned by position; a length mismatch is a `ValueError`. -/
def addColumn (rows : List (Row F)) (name : String) (col : List F) : Except PyErr (List (Row F)) :=
  if rows.length = col.length then
    .ok (List.zipWith (fun r v => (r.1, fun c => if c = name then v else r.2 c)) rows col)
  else .error .valueError

/-- Rows as a table. -/
def rowsTable (cols : List String) (rows : List (Row F)) : Table F :=
  { cols := cols, val := fun c y => (rows.lookup y).map (fun r => r c) }

/-- `_precalculate_vanilla_gases`, lines 219-246. -/
def precalculate (gas : Dict (Gas F)) (concIn emis : Frame F) (pam : Dict (PyVal F))
    (pert : Option (List (PertRow F))) (years : List Int) (cl br : Dict Int) :
    Except PyErr (Precalc F) := do
  let gases ← vanillaGases gas
  let conc ← precalcConc gas concIn emis pam gases
  let erf0 ← precalcErf (gasOr gas) conc
  let so3 ← gas.getE "STRAT_O3"
  let strat ← stratO3Series cl br gases conc years so3.sarf
  let rows ← addColumn erf0 "STRAT_O3" strat
  let cols := if "STRAT_O3" ∈ gases then gases else gases ++ ["STRAT_O3"]
  let erf ← addForcingPertVanilla (pert.getD []) (rowsTable cols rows)
  return { gases := gases, conc := conc, erf := erf,
           spicy := gas.keys.filter (fun g => g ∉ cols) }

/-- `precalc_erf["TOT_vanilla"][yr]`: the row sum of line 240 read at line 689. -/
def totVanilla (p : Precalc F) (yr : Int) : Except PyErr F :=
  match p.erf.cols.mapM (fun c => p.erf.val c yr) with
  | some vs => .ok (fsum vs)
  | none => .error .keyError

/-! ## Construction and reset -/

/-- The tracers that get a forcing array, lines 369-374. -/
def forcKeysOf (spicy : List String) : List String :=
  let ks := spicy.filter (fun t => t ≠ "CO2.1")
  if "Total_forcing" ∈ ks then ks else ks ++ ["Total_forcing"]

/-- The tracers that get a concentration dictionary, lines 369-372. -/
def concKeysOf (gas : Dict (Gas F)) (spicy : List String) : List String :=
  spicy.filter (fun t => t ≠ "CO2.1" ∧ (t = "TROP_O3" ∨ (gasOr gas t).concUnit ≠ "-"))

/-- Lines 363-374: the part of `reset_with_new_pams` after the parameters are set. -/
def resetArrays (ops : CarbonOps F κ) (h : Handler F κ) (pamset_carbon : Option (Dict (PyVal F))) :
    Except PyErr (Handler F κ) := do
  let carbon ← ops.reset h.carbon pamset_carbon
  return { h with
    pam := avoidRegionalDoubleCounting h.gas.keys h.pam
    carbon := carbon
    concKeys := concKeysOf h.gas h.prec.spicy
    conc := fun _ _ => none
    forcKeys := forcKeysOf h.prec.spicy
    forc := fun _ _ => 0.0 }

/-- `reset_with_new_pams(pamset, pamset_carbon)` for an existing instance, lines 340-374. -/
def resetWithNewPams (ops : CarbonOps F κ) (h : Handler F κ) (pamset : Option (Dict (PyVal F)))
    (pamset_carbon : Option (Dict (PyVal F))) : Except PyErr (Handler F κ) := do
  let pam ← checkPamsetConsistency h.pam (Factory.checkPamset pamset)
  resetArrays ops { h with pam := pam } pamset_carbon

/-- Lines 195-196: emission perturbations change the emission table in place. -/
def perturbedEmis (inp : Inputs F) : Except PyErr (Frame F) :=
  match inp.pertEm with
  | none => .ok inp.emis
  | some rows => do
    let t ← perturbEmissions inp.emis.toTable rows
    return inp.emis.withTable t

/-- `ConcentrationsEmissionsHandler.__init__`, lines 162-217. -/
def construct (ops : CarbonOps F κ) (inp : Inputs F) (pamset : Option (Dict (PyVal F)))
    (pamset_carbon : Option (Dict (PyVal F))) : Except PyErr (Handler F κ) := do
  let pam := Factory.checkPamset pamset
  let nystart ← pamI pam "nystart"
  let nyend ← pamI pam "nyend"
  let years := pyRange nystart (nyend + 1)
  let pam := Dict.set pam "conc_run" (.bool inp.concRun)
  let emis ← perturbedEmis inp
  let clbr ← PubUtils.makeClAndBr inp.gas.keys
  let prec ← precalculate inp.gas inp.concIn emis pam inp.pertForc years clbr.1 clbr.2
  let pre ← inp.concIn.at' "CO2" nystart
  let pamset_carbon := Dict.set (pamset_carbon.getD []) "preindustrial_co2_conc" (.flt pre)
  let carbon ← ops.create pam pamset_carbon
  resetArrays ops
    { gas := inp.gas, natCh4 := inp.natCh4, natN2o := inp.natN2o, concIn := inp.concIn,
      emis := emis, pam := pam, pert := inp.pertForc, years := years, prec := prec,
      carbon := carbon, concKeys := [], conc := fun _ _ => none, forcKeys := [],
      forc := fun _ _ => 0.0 }
    (some pamset_carbon)

/-! ## From emissions to concentrations -/

/-- `self.years[0]`. -/
def Handler.y0 (h : Handler F κ) : Except PyErr Int :=
  match h.years with
  | y :: _ => .ok y
  | [] => .error .indexError

/-- `self.conc[tracer][yr]`. -/
def Handler.concAt (h : Handler F κ) (tracer : String) (yr : Int) : Except PyErr F :=
  if tracer ∈ h.concKeys then
    match h.conc tracer yr with
    | some v => .ok v
    | none => .error .keyError
  else .error .keyError

/-- `self.conc[tracer][yr] = v`. -/
def Handler.setConc (h : Handler F κ) (tracer : String) (yr : Int) (v : F) : Handler F κ :=
  { h with conc := fun t y => if t = tracer ∧ y = yr then some v else h.conc t y }

/-- A row of the gas table. -/
def Handler.gasAt (h : Handler F κ) (tracer : String) : Except PyErr (Gas F) := h.gas.getE tracer

/-- One turn of the loop in `fill_one_row_conc`, lines 867-873. -/
def fillStep (yr : Int) (avoid : List String) (h : Handler F κ) (tracer : String) :
    Except PyErr (Handler F κ) :=
  if tracer ∈ avoid then .ok h
  else if tracer ∈ h.concIn.cols then do
    let v ← h.concIn.at' tracer yr
    return h.setConc tracer yr v
  else .ok (h.setConc tracer yr 0.0)

/-- `fill_one_row_conc(yr, avoid)`, lines 848-873. -/
def fillOneRow (h : Handler F κ) (yr : Int) (avoid : List String) : Except PyErr (Handler F κ) :=
  h.concKeys.foldlM (fillStep yr avoid) h

/-- `add_row_of_zeros_conc(yr)`, lines 875-888. -/
def addRowOfZeros (h : Handler F κ) (yr : Int) : Handler F κ :=
  { h with conc := fun t y => if y = yr ∧ t ∈ h.concKeys then some 0.0 else h.conc t y }

/-- The OH factor of the TAR mode, lines 831-836. -/
def dlnOh (h : Handler F κ) (conc_local : F) (yr : Int) : Except PyErr F := do
  let nox ← h.emis.at' "NOx" yr
  let nox0 ← h.emis.at' "NOx" 2000
  let co ← h.emis.at' "CO" yr
  let co0 ← h.emis.at' "CO" 2000
  let voc ← h.emis.at' "NMVOC" yr
  let voc0 ← h.emis.at' "NMVOC" 2000
  return -0.32 * (MathFn.log conc_local - MathFn.log 1751.0) + 0.0042 * (nox - nox0)
    - 0.000105 * (co - co0) - 0.000315 * (voc - voc0)

/-- The lifetime mode branches, lines 829-842. -/
def lifetimeMode (h : Handler F κ) (q conc_local : F) (yr : Int) : Except PyErr F := do
  let mode ← h.pam.getE "lifetime_mode"
  if Factory.isStr mode "TAR" then do
    let d ← dlnOh h conc_local yr
    return q * (d + 1.0)
  else if Factory.isStr mode "CONSTANT_12" then .ok (1.0 / 12.0)
  else if Factory.isStr mode "WIGLEY" then
    .ok (q * MathFn.pow (conc_local / 1700.0) (-0.238))
  else .ok q

/-- `methane_lifetime(q, conc_local, yr)`, lines 808-846. -/
def methaneLifetime (h : Handler F κ) (q conc_local : F) (yr : Int) : Except PyErr F := do
  let q ← lifetimeMode h q conc_local yr
  let g ← h.gasAt "CH4"
  return q + 1.0 / g.tau2 + 1.0 / g.tau3

/-- Lines 803-806: `emis` includes natural emissions. -/
def concUpdate (beta emis q conc_local : F) : F :=
  let point := emis / beta
  point / q + (conc_local - point / q) * MathFn.exp (-q)

/-- The total CO2 emissions handed to the carbon cycle, lines 761-763 and 778-780. -/
def co2Emissions (h : Handler F κ) (yr : Int) : Except PyErr F := do
  let ff ← h.emis.at' "CO2_FF" yr
  let lu ← h.emis.at' "CO2_AFOLU" yr
  let g ← h.gasAt "CO2"
  return ff + lu + g.natEm

/-- One call of the carbon cycle, lines 759-765 and 776-782. -/
def co2Step (ops : CarbonOps F κ) (yr : Int) (fb : Option (Dict F)) (h : Handler F κ) :
    Except PyErr (Handler F κ) := do
  let em ← co2Emissions h yr
  let r ← ops.step h.carbon yr em fb
  return { (h.setConc "CO2" yr r.1) with carbon := r.2 }

/-- Lines 787-790. -/
def concLocal (h : Handler F κ) (tracer : String) (yr : Int) : Except PyErr F := do
  let y0 ← h.y0
  if y0 < yr then h.concAt tracer (yr - 1) else h.concIn.at' tracer yr

/-- Lines 795 and 798: the natural emissions of the year are written into the gas table. -/
def setNatEm (h : Handler F κ) (tracer : String) (yr : Int) : Except PyErr (Handler F κ) :=
  if tracer = "CH4" then do
    let v ← h.natCh4.at' "CH4" yr
    let g ← h.gasAt tracer
    return { h with gas := Dict.set h.gas tracer { g with natEm := v } }
  else if tracer = "N2O" then do
    let v ← h.natN2o.at' "N2O" yr
    let g ← h.gasAt tracer
    return { h with gas := Dict.set h.gas tracer { g with natEm := v } }
  else .ok h

/-- The decay rate, lines 792 and 796. -/
def decayRate (h : Handler F κ) (tracer : String) (conc_local : F) (yr : Int) : Except PyErr F := do
  let g ← h.gasAt tracer
  let q := 1.0 / g.tau1
  if tracer = "CH4" then methaneLifetime h q conc_local yr else .ok q

/-- Lines 787-806: one tracer that is not CO2, from `emstart` on. (Line 784 is never true here.) -/
def otherStep (yr : Int) (h : Handler F κ) (tracer : String) : Except PyErr (Handler F κ) := do
  let conc_local ← concLocal h tracer yr
  let h ← setNatEm h tracer yr
  let q ← decayRate h tracer conc_local yr
  let g ← h.gasAt tracer
  let em ← h.emis.at' tracer yr
  return h.setConc tracer yr (concUpdate g.beta (em + g.natEm) q conc_local)

/-- One turn of the loop at lines 770-806. -/
def tracerStep (ops : CarbonOps F κ) (yr : Int) (fb : Option (Dict F)) (h : Handler F κ)
    (tracer : String) : Except PyErr (Handler F κ) := do
  let g ← h.gasAt tracer
  if g.concUnit = "-" then .ok h
  else if tracer = "CO2" then co2Step ops yr fb h
  else otherStep yr h tracer

/-- Before emissions start, lines 758-767. The carbon cycle runs before the dictionary is indexed. -/
def beforeEmstart (ops : CarbonOps F κ) (h : Handler F κ) (yr : Int) (fb : Option (Dict F)) :
    Except PyErr (Handler F κ) := do
  let h ← co2Step ops yr fb h
  if "CO2" ∈ h.concKeys then fillOneRow h yr ["CO2"] else .error .keyError

/-- `yr < v` for a parameter value (a value that is not a number raises `TypeError`). -/
def yearLt (v : PyVal F) (yr : Int) : Except PyErr Bool :=
  match v.toI, v.toF with
  | some es, _ => .ok (decide (yr < es))
  | none, some x => .ok (decide (ofInt yr < x))
  | none, none => .error .typeError

/-- `yr < self.pamset["emstart"]`, line 758. -/
def beforeStart (p : Dict (PyVal F)) (yr : Int) : Except PyErr Bool := do
  let v ← p.getE "emstart"
  yearLt v yr

/-- `emi2conc(yr, feedback_dict)`, lines 728-806. -/
def emi2conc (ops : CarbonOps F κ) (h : Handler F κ) (yr : Int) (fb : Option (Dict F)) :
    Except PyErr (Handler F κ) := do
  if ← pamB h.pam "conc_run" then fillOneRow h yr []
  else if ← beforeStart h.pam yr then beforeEmstart ops h yr fb
  else h.concKeys.foldlM (tracerStep ops yr fb) (addRowOfZeros h yr)

/-! ## From concentrations to forcing -/

/-- The array index `yr - years[0]`. -/
def Handler.index (h : Handler F κ) (yr : Int) : Except PyErr Nat := do
  let y0 ← h.y0
  if yr < y0 then .error .indexError
  else if h.years.length ≤ (yr - y0).toNat then .error .indexError
  else .ok (yr - y0).toNat

/-- Lines 458-465. -/
def qCo2 (c c0 n n0 : F) : F :=
  ((-2.4e-7) * ((c - c0) * (c - c0)) + 7.2e-4 * MathFn.abs (c - c0) + (-2.1e-4) * 0.5 * (n0 + n) + 5.36)
    * MathFn.log (c / c0)

/-- Lines 469-474. -/
def qN2o (c c0 n n0 m m0 : F) : F :=
  ((-8.0e-6) * 0.5 * (c + c0) + 4.2e-6 * 0.5 * (n + n0) + (-4.9e-6) * 0.5 * (m + m0) + 0.117)
    * (MathFn.sqrt n - MathFn.sqrt n0)

/-- Lines 475-479. -/
def qCh4 (n n0 m m0 : F) : F :=
  ((-1.3e-6) * 0.5 * (m + m0) + (-8.2e-6) * 0.5 * (n + n0) + 0.043) * (MathFn.sqrt m - MathFn.sqrt m0)

/-- What `conc2forc` carries along: total, hemispheres, aerosol magnitude and the arrays. -/
structure Acc (F : Type) where
  tot : F
  nh : F
  sh : F
  aero : F
  forc : String → Nat → F
  conc : String → Int → Option F

/-- Write access to a forcing array: `KeyError` for an unknown tracer. -/
def needKey (keys : List String) (t : String) : Except PyErr Unit :=
  if t ∈ keys then .ok () else .error .keyError

/-- `calculate_forc_three_main(yr)`, lines 413-492. -/
def threeMain (h : Handler F κ) (yr : Int) : Except PyErr (Acc F) := do
  let y0 ← h.y0
  let n0 ← h.concAt "N2O" y0
  let n ← h.concAt "N2O" yr
  let c0 ← h.concAt "CO2" y0
  let c ← h.concAt "CO2" yr
  let m0 ← h.concAt "CH4" y0
  let m ← h.concAt "CH4" yr
  let gc ← h.gasAt "CO2"
  let gn ← h.gasAt "N2O"
  let gm ← h.gasAt "CH4"
  let q_co2 := gc.sarf * qCo2 c c0 n n0
  let q_n2o := gn.sarf * qN2o c c0 n n0 m m0
  let q_ch4 := gm.sarf * qCh4 n n0 m m0
  let i ← h.index yr
  let _ ← needKey h.forcKeys "CO2"
  let _ ← needKey h.forcKeys "CH4"
  let _ ← needKey h.forcKeys "N2O"
  let tot := q_co2 + q_n2o + q_ch4
  let hem := hemisphericForcing "three_main" tot 0.0 0.0
  return { tot := tot, nh := hem.1, sh := hem.2, aero := 0.0,
           forc := setForc (setForc (setForc h.forc "CO2" i q_co2) "CH4" i q_ch4) "N2O" i q_n2o,
           conc := h.conc }

/-- `self.conc[tracer][yr]` while the forcing loop runs. -/
def accConc (h : Handler F κ) (a : Acc F) (tracer : String) (yr : Int) : Except PyErr F :=
  Handler.concAt { h with conc := a.conc } tracer yr

/-- Lines 518-529. -/
def tropO3Conc (h : Handler F κ) (a : Acc F) (yr : Int) : Except PyErr F := do
  let ref ← pamI h.pam "ref_yr"
  let m ← accConc h a "CH4" yr
  let mref ← h.concIn.at' "CH4" ref
  let nox ← h.emis.at' "NOx" yr
  let nox0 ← h.emis.at' "NOx" ref
  let co ← h.emis.at' "CO" yr
  let co0 ← h.emis.at' "CO" ref
  let voc ← h.emis.at' "NMVOC" yr
  let voc0 ← h.emis.at' "NMVOC" ref
  return 30.0 + 6.7 * (MathFn.log m - MathFn.log mref) + 0.17 * (nox - nox0) + 0.0014 * (co - co0)
    + 0.0042 * (voc - voc0)

/-- `tropospheric_ozone_forcing(yr)`, lines 494-538: forcing and the concentrations with the new
entry. -/
def tropO3Forcing (h : Handler F κ) (a : Acc F) (yr : Int) :
    Except PyErr (F × (String → Int → Option F)) := do
  let y0 ← h.y0
  let v ← tropO3Conc h a yr
  let _ ← needKey h.concKeys "TROP_O3"
  let conc : String → Int → Option F :=
    fun t y => if t = "TROP_O3" ∧ y = yr then some v else a.conc t y
  let v0 ← accConc h { a with conc := conc } "TROP_O3" y0
  let qo3 ← pamF h.pam "qo3"
  if isEq v0 30.0 then return (0.0, conc)
  else return ((v - v0) / (30.0 - v0) * qo3, conc)

/-- The table at lines 556-565: tracer, reference emission, parameter. -/
def refEmissionSpecies : Dict (String × String) :=
  [("SO2", ("SO2", "qdirso2")), ("SO4_IND", ("SO2", "qindso2")), ("OC", ("OC", "qoc")),
   ("BC", ("BC", "qbc")), ("BMB_AEROS", ("BMB_AEROS_OC", "qbmb")), ("NMVOC", ("NMVOC", "qnmvoc")),
   ("NH3", ("NH3", "qnh3")), ("NOx", ("NOx", "qnox"))]

/-- `calc_aerosol_forcing(yr, tracer)`, lines 540-593. (The table reads all eight parameters when it
is built; they are always present.) -/
def aerosolForcing (h : Handler F κ) (yr : Int) (tracer : String) : Except PyErr F := do
  let y0 ← h.y0
  let g ← h.gasAt tracer
  if !(isEq g.alpha 0.0) then do
    let e ← h.emis.at' tracer yr
    let e0 ← h.emis.at' tracer y0
    return (e - e0) * g.alpha
  else match refEmissionSpecies.get? tracer with
    | none => .ok 0.0
    | some sp => do
      let e ← h.emis.at' sp.1 yr
      let e0 ← h.emis.at' sp.1 y0
      let q ← pamF h.pam sp.2
      return q * (e - e0)

/-- `tracer[:2]`. -/
def prefix2 (s : String) : String := String.ofList (s.toList.take 2)

/-- The aerosol branch condition, lines 647-652. -/
def isAerosol (t : String) : Bool :=
  t ∈ ["NMVOC", "NH3", "NOx"] || prefix2 t ∈ ["BC", "OC", "SO", "BM"]

/-- Line 657: a row of the gas table with non-zero `ALPHA`. -/
def hasAlpha (h : Handler F κ) (t : String) : Bool :=
  match h.gas.get? t with
  | some g => !(isEq g.alpha 0.0)
  | none => false

/-- Lines 643-679: forcing of one tracer, and the concentrations (changed by tropospheric ozone
only). -/
def tracerForcing (h : Handler F κ) (yr : Int) (rf_luc : F) (a : Acc F) (i : Nat) (t : String) :
    Except PyErr (F × (String → Int → Option F)) :=
  if t = "LANDUSE" then .ok (rf_luc, a.conc)
  else if isAerosol t then do
    let q ← aerosolForcing h yr t
    return (q, a.conc)
  else if hasAlpha h t then do
    let y0 ← h.y0
    let c ← accConc h a t yr
    let c0 ← accConc h a t y0
    let g ← h.gasAt t
    return ((c - c0) * g.alpha * g.sarf, a.conc)
  else if t = "TROP_O3" then do
    let r ← tropO3Forcing h a yr
    let g ← h.gasAt t
    return (r.1 * g.sarf, r.2)
  else if t = "STRAT_H2O" then do
    let p ← pamF h.pam "qh2o_ch4"
    let g ← h.gasAt t
    return (p * a.forc "CH4" i * g.sarf, a.conc)
  else .ok (0.0, a.conc)

/-- One turn of the loop at lines 640-685. -/
def forcStep (h : Handler F κ) (yr : Int) (rf_luc : F) (i : Nat) (a : Acc F) (t : String) :
    Except PyErr (Acc F) :=
  if t ∈ ["CO2", "N2O", "CH4"] then .ok a
  else do
    let r ← tracerForcing h yr rf_luc a i t
    let hem := hemisphericForcing t r.1 a.nh a.sh
    return { tot := a.tot + r.1, nh := hem.1, sh := hem.2,
             aero := if isAerosol t then a.aero + MathFn.abs r.1 else a.aero,
             forc := setForc a.forc t i r.1, conc := r.2 }

/-- Lines 689-694: the pre-computed gases. -/
def addVanilla (h : Handler F κ) (yr : Int) (a : Acc F) : Except PyErr (Acc F) := do
  let v ← totVanilla h.prec yr
  return { a with tot := a.tot + v, nh := a.nh + v, sh := a.sh + v }

/-- Lines 698-702: forcing perturbations (the year test is implied by the row filter). -/
def addPert (h : Handler F κ) (y0 yr : Int) (a : Acc F) : Acc F :=
  match h.pert with
  | none => a
  | some rows =>
    let s := addForcingPert rows h.forcKeys y0 yr ⟨a.tot, a.nh, a.sh, a.forc⟩
    { a with tot := s.tot, nh := s.nh, sh := s.sh, forc := s.forc }

/-- `self.forc[just_one]` for an arbitrary parameter value. -/
def justOneKey (keys : List String) (v : PyVal F) : Except PyErr String :=
  match v with
  | .str s => if s ∈ keys then .ok s else .error .keyError
  | _ => .error .keyError

/-- Lines 706-710. -/
def applyJustOne (h : Handler F κ) (i : Nat) (a : Acc F) : Except PyErr (Acc F) :=
  match h.pam.get? "just_one" with
  | none => .ok a
  | some v => do
    let k ← justOneKey h.forcKeys v
    let hem := hemisphericForcing k (a.forc k i) 0.0 0.0
    return { a with tot := a.forc k i, nh := hem.1, sh := hem.2 }

/-- The result of `conc2forc`. -/
structure ForcResult (F : Type) where
  tot : F
  nh : F
  sh : F
  wAero : F

/-- Lines 711-726. -/
def finishForc (h : Handler F κ) (i : Nat) (rf_sun : F) (a : Acc F) : ForcResult F × Handler F κ :=
  let forc := setForc a.forc "Total_forcing" i a.tot
  let total := fsum ((h.forcKeys.filter (fun k => k ≠ "Total_forcing")).map
    (fun k => MathFn.abs (forc k i)))
  ({ tot := a.tot, nh := a.nh + rf_sun, sh := a.sh + rf_sun,
     wAero := if 0.0 < total then a.aero / total else 0.0 },
   { h with forc := forc, conc := a.conc })

/-- `conc2forc(yr, rf_luc, rf_sun)`, lines 595-726. -/
def conc2forc (h : Handler F κ) (yr : Int) (rf_luc rf_sun : F) :
    Except PyErr (ForcResult F × Handler F κ) := do
  let a ← threeMain h yr
  let y0 ← h.y0
  let i ← h.index yr
  let a ← h.forcKeys.foldlM (forcStep h yr rf_luc i) a
  let a ← addVanilla h yr a
  let a ← applyJustOne h i (addPert h y0 yr a)
  return finishForc h i rf_sun a

/-! ## Reporting -/

/-- The column name a forcing component is reported under, line 997. -/
def reportName (t : String) : String := if t = "SO2" then "SO4_DIR" else t

/-- The forcing columns of the results, lines 988-997 (without the `Year` column and the column
order): the run's arrays, then the pre-computed table without `TOT_vanilla`. A column gives a value
for the years it has. -/
def reportForcing (h : Handler F κ) (y0 : Int) : List (String × (Int → Option F)) :=
  h.forcKeys.map (fun k => (reportName k, fun y =>
    if y < y0 ∨ h.years.length ≤ (y - y0).toNat then none else some (h.forc k (y - y0).toNat)))
  ++ h.prec.erf.cols.map (fun k => (reportName k, fun y => h.prec.erf.val k y))

/-- The concentration columns of the results, lines 1008-1020 (without the `Year` column): the run's
dictionaries and the pre-computed table, in the order of the gas table. A column gives a value for the
run years it has. -/
def reportConc (h : Handler F κ) : List (String × (Int → Option F)) :=
  (h.gas.keys.filter (fun k => k ∈ h.concKeys ∨ k ∈ h.prec.gases)).map (fun k => (k, fun y =>
    if y ∈ h.years then
      if k ∈ h.concKeys then h.conc k y else (h.prec.conc.lookup y).map (fun r => r k)
    else none))

/-- The last run year. -/
def Handler.yLast (h : Handler F κ) : Except PyErr Int :=
  match h.years.getLast? with
  | some y => .ok y
  | none => .error .indexError

/-- The rows of the emission table that are reported, lines 998-1001: labels after the last run year
are dropped (`KeyError` for a gap in the labels), then the `Year` column is assigned by position
(`ValueError` if the number of rows differs). -/
def reportEmisRows (h : Handler F κ) : Except PyErr (List Int) := do
  let yl ← h.yLast
  match h.emis.idx.getLast? with
  | none => .error .indexError
  | some last =>
    if (pyRange (yl + 1) (last + 1)).all (fun y => y ∈ h.emis.idx) then
      let rows := h.emis.idx.filter (fun y => y ∉ pyRange (yl + 1) (last + 1))
      if rows.length = h.years.length then .ok rows else .error .valueError
    else .error .keyError

/-- The emission columns of the results, lines 998-1006 (without the `Year` column): `CO2` is the sum
of the two CO2 columns, the others are the (perturbed) emission table. -/
def reportEmis (h : Handler F κ) : Except PyErr (List (String × (Int → Option F))) := do
  let rows ← reportEmisRows h
  if "CO2_FF" ∈ h.emis.cols ∧ "CO2_AFOLU" ∈ h.emis.cols then
    return ("CO2", fun y => if y ∈ rows then
        some (h.emis.cell "CO2_FF" y + h.emis.cell "CO2_AFOLU" y) else none) ::
      (h.emis.cols.filter (fun c => c ∉ ["CO2_FF", "CO2_AFOLU", "CO2"])).map (fun c => (c, fun y =>
        if y ∈ rows then some (h.emis.cell c y) else none))
  else .error .keyError

end
end Verif.Model.Handler
