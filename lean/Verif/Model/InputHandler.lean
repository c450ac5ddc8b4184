import Verif.Model.Driver

/-!
# Model of `/repo/src/ciceroscm/input_handler.py` and of `CICEROSCM.__init__`

Line numbers refer to `input_handler.py` unless another file is named. Text parsing is not modelled:
a file system (`Files`) gives, for every path, the parsed content `pandas`/`numpy` would deliver, and the
model starts there. Log messages are not modelled.
-/

namespace Verif.Model.InputHandler
open Verif.Py Verif.Model Verif.Model.Handler Verif.Model.Driver

/-- Input data, read from a file or given by the user. `gases` is the gas parameter table with the column
`EM_UNIT` beside the columns of `Gas`; `rows` is a table whose rows are used by position. -/
inductive Data (F : Type) where
  | gases (t : Dict (Gas F × String))
  | table (t : Frame F)
  | rows (rs : List (List F))
  | pert (rs : List (PertRow F))
  | array (xs : List F)

/-- A value of the configuration dictionary: a plain value or input data. -/
inductive CfgVal (F : Type) where
  | val (v : PyVal F)
  | data (d : Data F)

namespace CfgVal
variable {F : Type}

/-- `isinstance(v, int) or isinstance(v, float)`. -/
def isNum : CfgVal F → Bool
  | .val v => v.isNum
  | .data _ => false

/-- The value as a file name (`os.path.exists` raises `TypeError` for other values). -/
def path : CfgVal F → Except PyErr String
  | .val (.str s) => .ok s
  | _ => .error .typeError

end CfgVal

/-- The files of the computer, as parsed by `pandas`/`numpy` (an unreadable file raises). `years` are the rows
of a header-less file; `forcFirst` says whether the first line begins with "year" (line 167-168); `header` is
the row of units by column; `nan` is the missing value. -/
structure Files (F : Type) where
  present : String → Bool
  gaspam : String → Except PyErr (Dict (Gas F × String))
  column : String → Except PyErr (List F)
  table : String → Except PyErr (Frame F)
  years : String → Except PyErr (List (List F))
  forcFirst : String → Except PyErr Bool
  forcTable : String → Except PyErr (Frame F)
  pert : String → Except PyErr (List (PertRow F))
  header : String → Except PyErr (Dict String)
  defaultDir : String
  cwd : String
  nan : F

section
variable {F κ τ : Type}

/-! ## Checking the configuration: `_utils.py` on values that may be data -/

/-- `check_numeric_pamset`, _utils.py:10-43. -/
def checkNumericCfg (required pamset : Dict (CfgVal F)) : Dict (CfgVal F) :=
  required.foldl (fun pamset p =>
    match pamset.get? p.1 with
    | none => pamset.set p.1 p.2
    | some v => if !v.isNum then pamset.set p.1 p.2 else pamset) pamset

/-- `cut_and_check_pamset`, _utils.py:46-112, for a non-empty `used`. -/
def cutAndCheckCfg (required pamset used : Dict (CfgVal F)) : Dict (CfgVal F) :=
  let used := used.update required
  checkNumericCfg required
    (pamset.foldl (fun new p => if used.has p.1 then new.set p.1 p.2 else new) [])

/-! ## Reading -/

/-- `read_inputfile(..., cut_years=True, ...)`, lines 99-105, after parsing: an empty table has no first label
(`IndexError`); `drop` raises `KeyError` for a label that is not there. -/
def cutYears (t : Frame F) (year_start year_end : Int) : Except PyErr (Frame F) :=
  match t.idx.head?, t.idx.getLast? with
  | some min_year, some max_year =>
    let cut_rows := pyRange min_year year_start ++ pyRange (year_end + 1) (max_year + 1)
    if cut_rows.all (fun y => decide (y ∈ t.idx)) then
      .ok { t with idx := t.idx.filter (fun y => decide (y ∉ cut_rows)) }
    else .error .keyError
  | _, _ => .error .indexError

/-- The new name of an emission column, line 529. -/
def renameEmission (c : String) : String :=
  if c = "CO2" then "CO2_FF" else if c = "CO2.1" then "CO2_AFOLU" else c

/-- The name the column had in the file. -/
def emissionSource (c : String) : String :=
  if c = "CO2_FF" then "CO2" else if c = "CO2_AFOLU" then "CO2.1" else c

/-- `read_emissions`, lines 523-530. Simplification: a file that already has a column `CO2_FF` beside `CO2`
(which would give two columns of one name) is read as if the renamed one were the only one. -/
def readEmissions (t : Frame F) (nystart nyend : Int) : Except PyErr (Frame F) := do
  let t ← cutYears t nystart nyend
  return { cols := t.cols.map renameEmission, idx := t.idx, cell := fun c y => t.cell (emissionSource c) y }

/-- `read_natural_emissions`, lines 70-74, with the default years 1750 to 2500: another number of rows raises
`ValueError`. -/
def readNatural [OfScientific F] (component : String) (xs : List F) : Except PyErr (Frame F) :=
  if xs.length = (pyRange 1750 2501).length then
    .ok { cols := [component], idx := pyRange 1750 2501, cell := fun _ y => (xs[(y - 1750).toNat]?).getD 0.0 }
  else .error .valueError

/-- `read_data_on_year_row`, lines 623-640: rows before `nystart` are skipped for a start after 1750, and
`set_axis` raises `ValueError` unless there is a row per year (its result is not used). -/
def readYearRows (rs : List (List F)) (nystart nyend : Int) : Except PyErr (List (List F)) :=
  let nrows := (pyRange nystart (nyend + 1)).length
  let df := if 1750 < nystart then (rs.drop (nystart - 1750).toNat).take nrows else rs.take nrows
  if df.length = nrows then .ok df else .error .valueError

/-- The aerosol columns, lines 190-196. -/
def aeroCols (cols : List String) : List String :=
  let aero := ["SO2", "SO4_IND", "BC", "OC", "NOx", "NMVOC", "NH3", "BMB_AEROS"].filter (fun c => decide (c ∈ cols))
  let reg := cols.filter (fun c => ["SO", "BC", "OC", "BM"].any (fun p => c.toList.take 2 == p.toList))
  reg.foldl (fun acc c => if c ∈ acc then acc else acc ++ [c]) aero

/-- A new column (or a column replaced), `df[c] = ...`. -/
def setColumn (t : Frame F) (c : String) (v : Int → F) : Frame F :=
  { t with cols := if c ∈ t.cols then t.cols else t.cols ++ [c]
           cell := fun c' y => if c' = c then v y else t.cell c' y }

/-- The column `total` of a forcing table and the hemispheres made from it, lines 175-181. The mean of line 177
has the columns as labels, so in the assignment no year finds its value. -/
def forcTotals [Add F] [OfScientific F] (nan : F) (t : Frame F) : Frame F :=
  if "total" ∈ t.cols then t
  else if "FORC_NH" ∈ t.cols ∧ "FORC_SH" ∈ t.cols then setColumn t "total" (fun _ => nan)
  else
    let total := fun y => fsum (t.cols.map (fun c => t.cell c y))
    setColumn (setColumn (setColumn t "total" total) "FORC_NH" total) "FORC_SH" total

/-- The column `w_aero`, lines 189-205. -/
def forcWeights [Add F] [Div F] [OfScientific F] [LT F] [DecidableLT F] [MathFn F] (t : Frame F) : Frame F :=
  if "w_aero" ∈ t.cols then t
  else
    let aero := aeroCols t.cols
    let agents := t.cols.filter (fun c => !(["total", "FORC_NH", "FORC_SH"].contains c))
    if aero.isEmpty || agents.isEmpty then t
    else setColumn t "w_aero" (fun y =>
      let mag := fsum (aero.map (fun c => MathFn.abs (t.cell c y)))
      let all := fsum (agents.map (fun c => MathFn.abs (t.cell c y)))
      if 0.0 < all then mag / all else 0.0)

/-! ## The input handler -/

/-- The input handler: its configuration, with the run years. -/
structure Handler (F : Type) where
  cfg : Dict (CfgVal F)
  nystart : Int
  nyend : Int

/-- `self.read_methods`, lines 255-272. -/
def readMethods : List String :=
  ["forc", "gaspam", "nat_ch4", "nat_n2o", "concentrations", "emissions", "perturb_em", "perturb_forc", "rf_luc",
   "rf_sun", "rf_volc_n", "rf_volc_s"]

variable [Add F] [Sub F] [Mul F] [Div F] [Neg F] [OfScientific F] [LT F] [DecidableLT F] [MathFn F]

/-- `read_forc`, lines 165-206. -/
def readForc (fs : Files F) (p : String) : Except PyErr (Data F) := do
  if ← fs.forcFirst p then do
    let t ← fs.forcTable p
    return .table (forcWeights (forcTotals fs.nan t))
  else do
    let xs ← fs.column p
    return .array xs

/-- The reading method of an input applied to a file, lines 255-272 and 293-298. -/
def readFile (fs : Files F) (ih : Handler F) (what p : String) : Except PyErr (Data F) :=
  if what = "forc" then readForc fs p
  else if what = "gaspam" then return .gases (← fs.gaspam p)
  else if what = "nat_ch4" then do return .table (← readNatural "CH4" (← fs.column p))
  else if what = "nat_n2o" then do return .table (← readNatural "N2O" (← fs.column p))
  else if what = "concentrations" then do return .table (← cutYears (← fs.table p) ih.nystart ih.nyend)
  else if what = "emissions" then do return .table (← readEmissions (← fs.table p) ih.nystart ih.nyend)
  else if what = "perturb_em" ∨ what = "perturb_forc" then do return .pert (← fs.pert p)
  else if what ∈ ["rf_luc", "rf_sun", "rf_volc_n", "rf_volc_s"] then do
    return .rows (← readYearRows (← fs.years p) ih.nystart ih.nyend)
  else .error .keyError

/-- `get_data(what)`, lines 461-504. Simplification: data under the key must be data (a plain value would be
returned as it is and fail where it is used). -/
def getData (fs : Files F) (ih : Handler F) (what : String) : Except PyErr (Data F) :=
  match ih.cfg.get? (what ++ "_file") with
  | some v =>
    if what ∉ readMethods then .error .keyError
    else do readFile fs ih what (← v.path)
  | none =>
    match ih.cfg.get? (what ++ "_data") with
    | some (.data d) => .ok d
    | some (.val _) => .error .typeError
    | none => .error .keyError

/-- `optional_pam(which)`, lines 583-602. -/
def optionalPam (ih : Handler F) (which : String) : Bool :=
  ih.cfg.has (which ++ "_file") || ih.cfg.has (which ++ "_data")

/-- Lines 273-280: the keys that are kept. -/
def usedCfg : Dict (CfgVal F) :=
  [("sunvolc", .val (.int 0)), ("conc_run", .val (.bool false)), ("idtm", .val (.int 24))] ++
    readMethods.flatMap (fun k => [(k ++ "_file", .val (.int 0)), (k ++ "_data", .val (.int 0))])

/-- Lines 281-292: the keys with defaults. -/
def requiredCfg : Dict (CfgVal F) :=
  [("nystart", .val (.int 1750)), ("nyend", .val (.int 2100)), ("emstart", .val (.int 1850)),
   ("carbon_cycle_model", .val (.str "default")), ("thermal_model", .val (.str "default"))]

/-- A year of the configuration. -/
def cfgI (cfg : Dict (CfgVal F)) (k : String) : Except PyErr Int := do
  match ← cfg.getE k with
  | .val v => match v.toI with
    | some n => .ok n
    | none => .error .typeError
  | .data _ => .error .typeError

/-- `("sunvolc", 1) in self.cfg.items()`, line 401. -/
def sunvolcOn (cfg : Dict (CfgVal F)) : Bool :=
  match cfg.get? "sunvolc" with
  | some (.val v) => v.pyEq (.int 1)
  | _ => false

/-- Lines 391-400. -/
def lucDefault (fs : Files F) (cfg : Dict (CfgVal F)) : Dict (CfgVal F) :=
  if !cfg.has "rf_luc_file" && !cfg.has "rf_luc_data" then
    cfg.set "rf_luc_file" (.val (.str (fs.defaultDir ++ "/IPCC_LUCalbedo.txt")))
  else cfg

/-- Lines 404-407. -/
def sunDefault (fs : Files F) (cfg : Dict (CfgVal F)) : Dict (CfgVal F) :=
  if !cfg.has "rf_sun_file" && !cfg.has "rf_sun_data" then
    cfg.set "rf_sun_file" (.val (.str (fs.defaultDir ++ "/solar_IPCC.txt")))
  else cfg

/-- `self.cfg[b] = self.cfg[a]`. -/
def copyKey (cfg : Dict (CfgVal F)) (a b : String) : Dict (CfgVal F) :=
  match cfg.get? a with
  | some v => cfg.set b v
  | none => cfg

/-- Lines 408-429. -/
def volcDefault (fs : Files F) (cfg : Dict (CfgVal F)) : Dict (CfgVal F) :=
  if !["rf_volc_file", "rf_volc_data", "rf_volc_n_file", "rf_volc_s_file", "rf_volc_n_data",
       "rf_volc_s_data"].any (fun k => cfg.has k) then
    let p := .val (.str (fs.defaultDir ++ "/meanVOLCmnd_ipcc_NH.txt"))
    (cfg.set "rf_volc_n_file" p).set "rf_volc_s_file" p
  else if cfg.has "rf_volc_file" then copyKey (copyKey cfg "rf_volc_file" "rf_volc_n_file") "rf_volc_file" "rf_volc_s_file"
  else if cfg.has "rf_volc_data" then copyKey (copyKey cfg "rf_volc_data" "rf_volc_n_data") "rf_volc_data" "rf_volc_s_data"
  else cfg

/-- Lines 430-441: `np.zeros` raises `ValueError` for a negative length. -/
def sunVolcZero (cfg : Dict (CfgVal F)) (nystart nyend : Int) : Except PyErr (Dict (CfgVal F)) :=
  let n := nyend - nystart + 1
  if n < 0 then .error .valueError
  else
    let volc := CfgVal.data (.rows (List.replicate n.toNat (List.replicate 12 0.0)))
    .ok (((cfg.set "rf_volc_n_data" volc).set "rf_volc_s_data" volc).set "rf_sun_data"
      (.data (.rows (List.replicate n.toNat [0.0]))))

/-- `set_sun_volc_luc_defaults`, lines 391-441. -/
def setDefaults (fs : Files F) (cfg : Dict (CfgVal F)) (nystart nyend : Int) :
    Except PyErr (Dict (CfgVal F)) :=
  let cfg := lucDefault fs cfg
  if sunvolcOn cfg then .ok (volcDefault fs (sunDefault fs cfg)) else sunVolcZero cfg nystart nyend

/-- `get_flat_natural_emissions(component)`, lines 385-389. -/
def flatNatural (fs : Files F) (ih : Handler F) (component : String) : Except PyErr (Data F) := do
  match ← getData fs ih "gaspam" with
  | .gases t =>
    let g ← t.getE component
    return .table { cols := [component], idx := pyRange ih.nystart (ih.nyend + 1), cell := fun _ _ => 1.0 * g.1.natEm }
  | _ => .error .typeError

/-- Lines 301-305, one turn: natural emissions default to the flat values of the gas table. -/
def naturalDefault (fs : Files F) (ih : Handler F) (k : String × String) : Except PyErr (Handler F) :=
  if !optionalPam ih k.1 && optionalPam ih "gaspam" then do
    let d ← flatNatural fs ih k.2
    return { ih with cfg := ih.cfg.set (k.1 ++ "_data") (.data d) }
  else .ok ih

/-- The replacement for a missing natural emissions file, line 142: the name between the underscores. -/
def naturalPath (fs : Files F) (key : String) : String :=
  fs.cwd ++ "/input_OTHER/NATEMIS/natemis_" ++ (if key = "nat_ch4_file" then "ch4" else "n2o") ++ ".txt"

/-- `check_inputfiles(cfg)`, lines 134-143, for one key. -/
def checkFile (fs : Files F) (kv : String × CfgVal F) : Except PyErr (String × CfgVal F) :=
  if "file".toList.isSuffixOf kv.1.toList then do
    let p ← kv.2.path
    if fs.present p then return kv
    else if kv.1 ∉ ["nat_ch4_file", "nat_n2o_file"] then .error .fileNotFound
    else return (kv.1, .val (.str (naturalPath fs kv.1)))
  else .ok kv

/-- The rows the unit check leaves out, lines 320-330. -/
def uncheckedRows : List String :=
  ["LANDUSE", "OTHER", "SO4_IND", "TROP_O3", "STRAT_O3", "STRAT_H2O", "BMB_AEROS"]

/-- Lines 331-353: the units of an emission file. `true` means the method returns here (line 343). -/
def checkEmissionUnits (fs : Files F) (gas : Dict (Gas F × String)) (cfg : Dict (CfgVal F)) :
    Except PyErr Bool :=
  match cfg.get? "emissions_file" with
  | none => .ok false
  | some v => do
    let h ← fs.header (← v.path)
    if !h.has "CO2.1" then .error .keyError
    else
      let h := h.erase "CO2.1"
      if !gas.keys.all (fun t => h.has t) then return true
      else if (← gas.keys.mapM (fun t => h.getE t)) ≠ gas.map (fun kv => kv.2.2) then .error .valueError
      else return false

/-- Lines 355-373: the units of a concentration file. -/
def checkConcUnits (fs : Files F) (gas : Dict (Gas F × String)) (cfg : Dict (CfgVal F)) : Except PyErr Unit :=
  match cfg.get? "concentrations_file" with
  | none => .ok ()
  | some v => do
    let h ← fs.header (← v.path)
    let gas := gas.filter (fun kv => h.has kv.1)
    if (← (Dict.keys gas).mapM (fun t => h.getE t)) ≠ gas.map (fun kv => kv.2.1.concUnit) then .error .valueError
    else return ()

/-- `_check_gaspam_compatibility`, lines 309-373: `drop` raises `KeyError` if one of the rows is missing. -/
def checkGaspam (fs : Files F) (ih : Handler F) : Except PyErr Unit :=
  if optionalPam ih "gaspam" then do
    match ← getData fs ih "gaspam" with
    | .gases t =>
      if !uncheckedRows.all (fun r => t.has r) then .error .keyError
      else
        let gas := t.filter (fun kv => decide (kv.1 ∉ uncheckedRows))
        if ← checkEmissionUnits fs gas ih.cfg then return ()
        else checkConcUnits fs gas ih.cfg
    | _ => .error .typeError
  else .ok ()

/-- `InputHandler(cfg)`, lines 238-307. -/
def create (fs : Files F) (cfg : Dict (CfgVal F)) : Except PyErr (Handler F) := do
  let cfg := cutAndCheckCfg requiredCfg cfg usedCfg
  let nystart ← cfgI cfg "nystart"
  let nyend ← cfgI cfg "nyend"
  let cfg ← setDefaults fs cfg nystart nyend
  let ih ← [("nat_ch4", "CH4"), ("nat_n2o", "N2O")].foldlM (naturalDefault fs)
    { cfg := cfg, nystart := nystart, nyend := nyend }
  let cfg ← ih.cfg.mapM (checkFile fs)
  let ih := { ih with cfg := cfg }
  checkGaspam fs ih
  return ih

/-! ## `CICEROSCM.__init__` -/

/-- The truth value of a configuration value (`if self.pamset["conc_run"]`); data have none. -/
def truthy : CfgVal F → Bool
  | .val (.bool b) => b
  | .val (.int i) => decide (i ≠ 0)
  | .val (.npint i) => decide (i ≠ 0)
  | .val (.flt x) => !(isEq x 0.0)
  | .val (.str s) => decide (s ≠ "")
  | .val .none => false
  | .val (.farr xs) => decide (xs ≠ [])
  | .val (.rfun _ _) => true
  | .val (.obj _) => true
  | .data _ => true

/-- `conc_run()`, lines 535-547. -/
def concRun (ih : Handler F) : Bool :=
  match ih.cfg.get? "conc_run" with
  | some v => truthy v
  | none => false

/-- Data used as the gas parameter table, concentrations_emissions_handler.py:184 (other data fail in the first access;
here when they are handed over, as in the four definitions after this one). -/
def asGases (d : Data F) : Except PyErr (Dict (Gas F)) :=
  match d with
  | .gases t => .ok (t.map (fun kv => (kv.1, kv.2.1)))
  | _ => .error .typeError

/-- Data used as a table by year and column, concentrations_emissions_handler.py:185-190. -/
def asFrame (d : Data F) : Except PyErr (Frame F) :=
  match d with
  | .table t => .ok t
  | _ => .error .typeError

/-- Data used row by row, ciceroscm.py:133-136. -/
def asRows (d : Data F) : Except PyErr (List (List F)) :=
  match d with
  | .rows rs => .ok rs
  | _ => .error .typeError

/-- Data used as perturbations, concentrations_emissions_handler.py:195-198. -/
def asPert (d : Data F) : Except PyErr (List (PertRow F)) :=
  match d with
  | .pert rs => .ok rs
  | _ => .error .typeError

/-- Data used as prescribed forcing, ciceroscm.py:111-113. -/
def asForcing (d : Data F) : Except PyErr (Forcing F) :=
  match d with
  | .array xs => .ok (.array xs)
  | .table t => .ok (.frame t)
  | _ => .error .typeError

/-- The perturbations, if any are configured, concentrations_emissions_handler.py:195-198. -/
def getPert (fs : Files F) (ih : Handler F) (what : String) : Except PyErr (Option (List (PertRow F))) :=
  if optionalPam ih what then do
    let d ← getData fs ih what
    let rs ← asPert d
    return some rs
  else .ok none

/-- What `ConcentrationsEmissionsHandler.__init__` asks the input handler for,
concentrations_emissions_handler.py:184-198. -/
def getInputs (fs : Files F) (ih : Handler F) : Except PyErr (Inputs F) := do
  let gas ← asGases (← getData fs ih "gaspam")
  let natCh4 ← asFrame (← getData fs ih "nat_ch4")
  let natN2o ← asFrame (← getData fs ih "nat_n2o")
  let concIn ← asFrame (← getData fs ih "concentrations")
  let emis ← asFrame (← getData fs ih "emissions")
  let pertEm ← getPert fs ih "perturb_em"
  let pertForc ← getPert fs ih "perturb_forc"
  return { gas, natCh4, natN2o, concIn, emis, concRun := concRun ih, pertEm, pertForc }

/-- The first column of a table with a row per year (`iloc[i, 0]`; a row without columns raises `IndexError`,
here when the table is read). -/
def firstColumn (rs : List (List F)) : Except PyErr (List F) :=
  rs.mapM (fun r => match r with
    | x :: _ => .ok x
    | [] => .error .indexError)

/-- The plain values of a configuration (data count as opaque objects). -/
def plain (cfg : Dict (CfgVal F)) : Dict (PyVal F) :=
  cfg.map (fun kv => (kv.1, match kv.2 with
    | .val v => v
    | .data _ => .obj 0))

/-- ciceroscm.py:124-126: response functions are copied from the configuration. -/
def copyFunctions (cfg : Dict (PyVal F)) (p : Dict (PyVal F)) : Dict (PyVal F) :=
  cfg.foldl (fun p kv => if kv.1 = "rs_function" ∨ kv.1 = "rb_function" then p.set kv.1 kv.2 else p) p

/-- ciceroscm.py:111-131: the forcing of a forcing run, or the handler of another run. -/
def buildSource (cops : CarbonOps F κ) (fs : Files F) (ih : Handler F) (self_cfg cfg : Dict (PyVal F)) :
    Except PyErr (Source F κ) :=
  if optionalPam ih "forc" then do
    let d ← getData fs ih "forc"
    let f ← asForcing d
    return .forcing f
  else do
    let p ← Factory.driverEmiconc self_cfg
    let inputs ← getInputs fs ih
    let h ← construct cops inputs (some (copyFunctions cfg p)) none
    return .handler h

/-- `CICEROSCM(cfg)`, ciceroscm.py:70-141, with the chosen carbon cycle and thermal model given as operations
(the choice itself is `Factory.chooseComponents`). Both carbon cycles ask for the feedback variable `dtemp`,
carbon_cycle_abstract.py:155. -/
def build (cops : CarbonOps F κ) (tops : ThermalOps F τ) (fs : Files F) (cfg : Dict (CfgVal F)) :
    Except PyErr (Driver F κ) := do
  let self_cfg := Factory.driverCfg (plain cfg)
  let cfg := cfg.update (self_cfg.map (fun kv => (kv.1, .val kv.2)))
  let ih ← create fs cfg
  let nystart ← pamI self_cfg "nystart"
  let nyend ← pamI self_cfg "nyend"
  let source ← buildSource cops fs ih self_cfg (plain cfg)
  let volcN ← asRows (← getData fs ih "rf_volc_n")
  let volcS ← asRows (← getData fs ih "rf_volc_s")
  let sun ← firstColumn (← asRows (← getData fs ih "rf_sun"))
  let luc ← firstColumn (← asRows (← getData fs ih "rf_luc"))
  let results ← initialiseOutputArrays tops nystart nyend []
  return { nystart, nyend, source, feedbackList := some ["dtemp"], volcN, volcS, sun, luc, results }

end
end Verif.Model.InputHandler
