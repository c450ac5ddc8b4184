import Verif.Model.Handler

/-!
# Model of the run loop: `/repo/src/ciceroscm/ciceroscm.py`

Line numbers refer to that file unless another file is named. Thermal and carbon cycle models are
parameters (`ThermalOps`, `CarbonOps`), so everything proved here holds for all combinations.

Simplifications: row-per-year input frames (`rf_luc`, `rf_volc_sun[...]`) are lists of rows, read by
position as the code does with `iloc` (an index outside raises `IndexError`; negative indices do not
occur because the loop starts at `nystart`); only their first column is kept where only column 0 is
read. Plots are not modelled. When a run raises, the model gives no new instance state.
-/

namespace Verif.Model.Driver
open Verif.Py Verif.Model Verif.Model.Handler

/-- A thermal model class as the driver uses it: constructor, `set_feedback_gregory`,
`energy_budget(fn, fs, volc_n, volc_s)`, and `get_output_dict_thermal()` (output name, name in the
dictionary returned by `energy_budget`). -/
structure ThermalOps (F τ : Type) where
  create : Option (Dict (PyVal F)) → Except PyErr τ
  setFeedback : τ → F → τ
  budget : τ → F → F → List F → List F → Except PyErr (Dict F × τ)
  outputs : List (String × String)

/-- `self.rf`: an array used for both hemispheres, or a frame with a column per hemisphere. -/
inductive Forcing (F : Type) where
  | array (xs : List F)
  | frame (t : Frame F)

/-- `self.cfg["rf_run"]` with `self.rf`, or `self.ce_handler`. -/
inductive Source (F κ : Type) where
  | forcing (f : Forcing F)
  | handler (h : Handler F κ)

/-- The attributes of `CICEROSCM`. `feedbackList` is read for emission and concentration runs only. -/
structure Driver (F κ : Type) where
  nystart : Int
  nyend : Int
  source : Source F κ
  feedbackList : Option (List String)
  volcN : List (List F)
  volcS : List (List F)
  sun : List F
  luc : List F
  results : Dict (List F)

/-- The local state of the loop in `_run`: thermal model, last year's thermal output, and the parts
of the instance the loop changes. -/
structure RunState (F κ τ : Type) where
  thermal : τ
  values : Option (Dict F)
  source : Source F κ
  results : Dict (List F)

/-- `FORC_OUTPUT_LIST`, lines 21-26. -/
def forcOutputList : List String :=
  ["Total_forcing", "Solar_forcing", "Volcanic_forcing_NH", "Volcanic_forcing_SH"]

section
variable {F κ τ : Type} [Add F] [Sub F] [Mul F] [Div F] [Neg F] [OfScientific F] [LT F] [DecidableLT F]
  [MathFn F]

/-- `iloc[i]` on a list of rows. -/
def rowOf {α : Type} (l : List α) (i : Int) : Except PyErr α :=
  if i < 0 then .error .indexError
  else match l[i.toNat]? with
    | some x => .ok x
    | none => .error .indexError

/-- `np.mean`. -/
def mean (xs : List F) : F := fsum xs / ofInt xs.length

/-- `initialise_output_arrays`, lines 143-155. -/
def initialiseOutputArrays (tops : ThermalOps F τ) (nystart nyend : Int) (results : Dict (List F)) :
    Except PyErr (Dict (List F)) :=
  if nyend - nystart + 1 < 0 then .error .valueError
  else .ok ((tops.outputs.map Prod.fst ++ forcOutputList).foldl
    (fun r o => Dict.set r o (List.replicate (nyend - nystart + 1).toNat 0.0)) results)

/-- What a year hands to the thermal model: hemispheric forcings, total, aerosol weight. -/
structure YearForcing (F : Type) where
  fn : F
  fs : F
  forc : F
  wAero : F

/-- The aerosol weight of a prescribed forcing frame, lines 193-196. -/
def frameWeight (t : Frame F) (yr : Int) : Except PyErr F :=
  if "w_aero" ∈ t.cols then t.at' "w_aero" yr else .ok 0.0

/-- Lines 184-198 of `forc_set`: the prescribed values before solar forcing. -/
def prescribed (rf : Forcing F) (nystart yr : Int) : Except PyErr (YearForcing F) :=
  match rf with
  | .array xs => do
    let f ← rowOf xs (yr - nystart)
    return ⟨f, f, f, 0.0⟩
  | .frame t => do
    let forc ← t.at' "total" yr
    let fn ← t.at' "FORC_NH" yr
    let fs ← t.at' "FORC_SH" yr
    let w ← frameWeight t yr
    return ⟨fn, fs, forc, w⟩

/-- `forc_set(yr, rf_sun)`, lines 157-202. -/
def forcSet (d : Driver F κ) (rf : Forcing F) (yr : Int) : Except PyErr (YearForcing F) := do
  let p ← prescribed rf d.nystart yr
  let s ← rowOf d.sun (yr - d.nystart)
  return ⟨p.fn + s, p.fs + s, p.forc + s, p.wAero⟩

/-- Lines 279-284: the feedback dictionary of a year; `values.get(key, 0)`. -/
def feedbackDict (keys : Option (List String)) (values : Option (Dict F)) : Option (Dict F) :=
  match values, keys with
  | some v, some ks => some (ks.map (fun k => (k, (v.get? k).getD 0.0)))
  | _, _ => none

/-- Lines 278-292: the forcing of a year. -/
def yearForcing (cops : CarbonOps F κ) (d : Driver F κ) (src : Source F κ)
    (values : Option (Dict F)) (yr : Int) : Except PyErr (YearForcing F × Source F κ) :=
  match src with
  | .forcing rf => do
    let f ← forcSet d rf yr
    return (f, .forcing rf)
  | .handler h => do
    let h ← emi2conc cops h yr (feedbackDict d.feedbackList values)
    let luc ← rowOf d.luc (yr - d.nystart)
    let sun ← rowOf d.sun (yr - d.nystart)
    let r ← conc2forc h yr luc sun
    return (⟨r.1.nh, r.1.sh, r.1.tot, r.1.wAero⟩, .handler r.2)

/-- `self.results[output][i] = v`. -/
def setResult (r : Dict (List F)) (o : String) (i : Nat) (v : F) : Except PyErr (Dict (List F)) := do
  let a ← r.getE o
  if i < a.length then return Dict.set r o (a.set i v) else .error .indexError

/-- Lines 220-221. -/
def addThermal (values : Dict F) (i : Nat) (r : Dict (List F)) (o : String × String) :
    Except PyErr (Dict (List F)) := do
  let v ← values.getE o.2
  setResult r o.1 i v

/-- `add_year_data_to_output(values, forc, index)`, lines 204-229. -/
def addYearData (tops : ThermalOps F τ) (d : Driver F κ) (r : Dict (List F)) (values : Dict F)
    (forc : F) (index : Int) : Except PyErr (Dict (List F)) := do
  let r ← tops.outputs.foldlM (addThermal values index.toNat) r
  let r ← setResult r "Total_forcing" index.toNat forc
  let s ← rowOf d.sun index
  let r ← setResult r "Solar_forcing" index.toNat s
  let vn ← rowOf d.volcN index
  let r ← setResult r "Volcanic_forcing_NH" index.toNat (mean vn)
  let vs ← rowOf d.volcS index
  setResult r "Volcanic_forcing_SH" index.toNat (mean vs)

/-- One turn of the loop, lines 277-303. -/
def yearStep (cops : CarbonOps F κ) (tops : ThermalOps F τ) (d : Driver F κ) (s : RunState F κ τ)
    (yr : Int) : Except PyErr (RunState F κ τ) := do
  let f ← yearForcing cops d s.source s.values yr
  let vn ← rowOf d.volcN (yr - d.nystart)
  let vs ← rowOf d.volcS (yr - d.nystart)
  let b ← tops.budget (tops.setFeedback s.thermal f.1.wAero) f.1.fn f.1.fs vn vs
  let res ← addYearData tops d s.results b.1 f.1.forc (yr - d.nystart)
  return { thermal := b.2, values := some b.1, source := f.2, results := res }

/-- Lines 275-276: the handler is reset for a new run. -/
def resetSource (cops : CarbonOps F κ) (src : Source F κ) (pamset_emiconc pamset_carbon :
    Option (Dict (PyVal F))) : Except PyErr (Source F κ) :=
  match src with
  | .forcing rf => .ok (.forcing rf)
  | .handler h => do
    let h ← resetWithNewPams cops h pamset_emiconc pamset_carbon
    return .handler h

/-- The three parameter sets of a run. -/
structure RunPams (F : Type) where
  udm : Option (Dict (PyVal F))
  emiconc : Option (Dict (PyVal F))
  carbon : Option (Dict (PyVal F))

/-- Lines 264-276: the state before the first year. -/
def startRun (cops : CarbonOps F κ) (tops : ThermalOps F τ) (d : Driver F κ) (p : RunPams F) :
    Except PyErr (RunState F κ τ) := do
  let results ← initialiseOutputArrays tops d.nystart d.nyend d.results
  let thermal ← tops.create p.udm
  let source ← resetSource cops d.source p.emiconc p.carbon
  return { thermal := thermal, values := none, source := source, results := results }

/-- `_run`, lines 231-303 (without output writing): the instance after the run, and the thermal model
used by the run. -/
def run (cops : CarbonOps F κ) (tops : ThermalOps F τ) (d : Driver F κ) (p : RunPams F) :
    Except PyErr (Driver F κ × τ) := do
  let s ← startRun cops tops d p
  let s ← (pyRange d.nystart (d.nyend + 1)).foldlM (yearStep cops tops d) s
  return ({ d with source := s.source, results := s.results }, s.thermal)

/-- The series `write_data_to_file` reads, lines 360-422. -/
def writerSeries (rf_run : Bool) : List String :=
  ["OHC700", "OHCTOT", "RIB_glob", "RIB_N", "RIB_S", "dT_glob", "dT_NH", "dT_SH", "dT_glob_air",
   "dT_NH_air", "dT_SH_air", "dT_glob_sea", "dT_NH_sea", "dT_SHsea", "Solar_forcing",
   "Volcanic_forcing_NH", "Volcanic_forcing_SH"] ++ (if rf_run then ["Total_forcing"] else [])

/-- `rf_run`. -/
def Source.isForcing : Source F κ → Bool
  | .forcing _ => true
  | .handler _ => false

/-- `write_data_to_file(pamset)`, lines 334-430: the columns written (`KeyError` for a missing
series). File names and formatting are not modelled. -/
def writeData (d : Driver F κ) : Except PyErr (List (String × List F)) :=
  (writerSeries d.source.isForcing).mapM (fun n => do
    let a ← d.results.getE n
    return (n, a))

end

/-- `UpwellingDiffusionModel.output_dict_default`, upwelling_diffusion_model.py:134-149. -/
def udmOutputs : List (String × String) :=
  [("RIB_glob", "RIB"), ("RIB_N", "RIBN"), ("RIB_S", "RIBS"), ("dT_glob", "dtemp"),
   ("dT_NH", "dtempnh"), ("dT_SH", "dtempsh"), ("dT_glob_air", "dtemp_air"),
   ("dT_NH_air", "dtempnh_air"), ("dT_SH_air", "dtempsh_air"), ("dT_glob_sea", "dtemp_sea"),
   ("dT_NH_sea", "dtempnh_sea"), ("dT_SHsea", "dtempsh_sea"), ("OHC700", "OHC700"),
   ("OHCTOT", "OHCTOT")]

/-- `TwoLayerOceanModel.output_dict_default`, two_layer_ocean.py:40-49. -/
def twoLayerOutputs : List (String × String) :=
  [("RIB_glob", "RIB"), ("dT_glob", "dtemp"), ("OHC_MIXED", "OHC_MIXED"), ("OHC_DEEP", "OHC_DEEP"),
   ("OHC700", "OHC700"), ("OHCTOT", "OHCTOT"), ("dT_fast", "dtemp_fast"), ("dT_slow", "dtemp_slow")]

end Verif.Model.Driver
