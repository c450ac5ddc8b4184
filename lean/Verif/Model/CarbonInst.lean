import Verif.Model.Handler
import Verif.Model.Carbon
import Verif.Model.BoxCarbon
import Verif.Model.FlatParams

/-!
# The two carbon cycle models as the handler uses them

`carbon_cycle/carbon_cycle_mod.py` (`irOps`) and `carbon_cycle/carbon_cycle_mod_box.py` (`boxOps`):
construction from parameter sets, reset with new parameters, one year.
-/

namespace Verif.Model.CarbonInst
open Verif.Py Verif.Model Verif.Model.Handler

section
variable {F : Type} [Add F] [Sub F] [Mul F] [Div F] [Neg F] [OfScientific F] [LT F] [DecidableLT F]
  [MathFn F]

/-! ## Parameter sets -/

/-- common_carbon_cycle_functions.py:111-115. -/
def timeRequired : Dict (PyVal F) := [("idtm", .int 24), ("nystart", .int 1750), ("nyend", .int 2100)]

/-- carbon_cycle_mod.py:80-94 `CARBON_CYCLE_MODEL_REQUIRED_PAMSET`. -/
def irRequired : Dict (PyVal F) :=
  [("beta_f", .flt 0.287), ("mixed_carbon", .flt 75.0), ("ml_w_sigmoid", .flt 3.0),
   ("ml_fracmax", .flt 0.5), ("ml_t_half", .flt 0.5), ("t_half", .flt 0.5), ("w_sigmoid", .int 7),
   ("t_threshold", .int 4), ("w_threshold", .int 7), ("solubility_sens", .flt 0.02),
   ("solubility_limit", .flt 0.5), ("ml_depth_min", .flt 10.0), ("preindustrial_co2_conc", .flt 278.0)]

/-- carbon_cycle_mod.py:163 `used`. -/
def irUsed : Dict (PyVal F) := [("rs_function", .str "missing"), ("rb_function", .str "missing")]

/-- carbon_cycle_mod_box.py:19-28. -/
def boxRequired : Dict (PyVal F) :=
  [("beta_f", .flt 0.287), ("land_temp_sensitivity", .flt 0.1), ("soil_respiration_rate", .flt 0.02),
   ("ocean_mixed_layer_depth", .flt 25.0), ("ocean_exchange_rate", .flt 0.01),
   ("vegetation_to_soil_fraction", .flt 0.1), ("ocean_solubility_base", .flt 0.02),
   ("ocean_solubility_temp_coeff", .flt (-0.01))]

/-- A coefficient of a response function (a value that is not a number raises `TypeError` when the
function is evaluated; here when it is built). -/
def coefOf : Flat.PVal (PyVal F) → Except PyErr F
  | .val v => match v.toF with
    | some x => .ok x
    | none => .error .typeError
  | .fn _ _ => .error .typeError

/-- A processed value as a value of the parameter set. -/
def unflat : Flat.PVal (PyVal F) → Except PyErr (PyVal F)
  | .val v => .ok v
  | .fn c t => do
    let c ← c.mapM coefOf
    let t ← t.mapM coefOf
    return .rfun c t

/-- `value is None`. -/
def isNoneP : Flat.PVal (PyVal F) → Bool
  | .val .none => true
  | _ => false

/-- `_process_flat_carbon_parameters`, rfuns.py:82-125, on an ordinary parameter set. -/
def processFlat (p : Dict (PyVal F)) : Except PyErr (Dict (PyVal F)) := do
  let q ← Flat.processFlat isNoneP (p.map (fun kv => (kv.1, .val kv.2)))
  q.mapM (fun kv => do return (kv.1, ← unflat kv.2))

/-- common_carbon_cycle_functions.py:60-83 `take_out_missing`: deleting while iterating raises. -/
def takeOutMissing (p : Dict (PyVal F)) : Except PyErr (Dict (PyVal F)) :=
  if p.any (fun kv => Factory.isStr kv.2 "missing") then .error .runtimeError else .ok p

/-! ## The impulse response model -/

/-- The attributes of the model object. `self.pamset` is kept in two parts with disjoint keys: the
time parameters and the carbon parameters. -/
structure IR (F : Type) where
  idtm : Int
  nystart : Int
  years_tot : Int
  pam : Dict (PyVal F)
  rs : Nat → F
  rb : Nat → F
  hold : Carbon.State F

/-- carbon_cycle_mod.py:285-302: the ocean response. -/
def rsOf (pam : Dict (PyVal F)) (idtm : Nat) : Except PyErr (Nat → F) :=
  match Dict.get? pam "rs_function" with
  | none => .ok (fun i => rsFunction i idtm)
  | some (.rfun c t) => do
    let r ← checkArrayConsistency c t true
    return fun i => rsFunction2 r.1 r.2 i idtm
  | some _ => .error .typeError

/-- carbon_cycle_mod.py:304-323: the land response. -/
def rbOf (pam : Dict (PyVal F)) (idtm : Nat) : Except PyErr (Nat → F) :=
  match Dict.get? pam "rb_function" with
  | none => .ok (fun i => rbFunction i idtm)
  | some (.rfun c t) => do
    let r ← checkArrayConsistency c t false
    return fun i => rbFunction2 r.1 r.2 i idtm
  | some _ => .error .typeError

/-- carbon_cycle_mod.py:278-323 `precalc_r_functions`. -/
def precalcR (k : IR F) : Except PyErr (IR F) := do
  let rs ← rsOf k.pam k.idtm.toNat
  let rb ← rbOf k.pam k.idtm.toNat
  return { k with rs := rs, rb := rb }

/-- The parameters a year reads. -/
def irPams (k : IR F) : Except PyErr (Carbon.Pams F) := do
  let beta_f ← pamF k.pam "beta_f"
  let mixed_carbon ← pamF k.pam "mixed_carbon"
  let ml_w_sigmoid ← pamF k.pam "ml_w_sigmoid"
  let ml_fracmax ← pamF k.pam "ml_fracmax"
  let ml_t_half ← pamF k.pam "ml_t_half"
  let t_half ← pamF k.pam "t_half"
  let w_sigmoid ← pamF k.pam "w_sigmoid"
  let t_threshold ← pamF k.pam "t_threshold"
  let w_threshold ← pamF k.pam "w_threshold"
  let solubility_sens ← pamF k.pam "solubility_sens"
  let solubility_limit ← pamF k.pam "solubility_limit"
  let ml_depth_min ← pamF k.pam "ml_depth_min"
  let preindustrial_co2_conc ← pamF k.pam "preindustrial_co2_conc"
  return { beta_f, mixed_carbon, ml_w_sigmoid, ml_fracmax, ml_t_half, t_half, w_sigmoid, t_threshold,
           w_threshold, solubility_sens, solubility_limit, ml_depth_min, preindustrial_co2_conc,
           idtm := k.idtm.toNat, years_tot := k.years_tot.toNat, rs := k.rs, rb := k.rb }

/-- carbon_cycle_mod.py:190-198: the hold values of a new run, with the *current*
`preindustrial_co2_conc` (the new parameters are read afterwards). -/
def resetHold (k : IR F) : Except PyErr (IR F) := do
  let pre ← pamF k.pam "preindustrial_co2_conc"
  if k.idtm * k.years_tot < 0 then .error .valueError
  else return { k with hold :=
    { k.hold with yCO2 := 0.0, xCO2 := pre, sCO2 := fun _ => 0.0, emCO2_prev := 0.0,
                  dfnpp := fun _ => 0.0, ss1 := 0.0, sums := 0.0 } }

/-- carbon_cycle_mod.py:213-215: a response function given in the new set replaces the old one. -/
def takeFunction (new : Dict (PyVal F)) (pam : Dict (PyVal F)) (key : String) : Dict (PyVal F) :=
  match Dict.get? new key with
  | some v => Dict.set pam key v
  | none => pam

/-- carbon_cycle_mod.py:208-215: the parameters after a reset. -/
def irNewPam (pam new : Dict (PyVal F)) : Dict (PyVal F) :=
  ["rs_function", "rb_function"].foldl (takeFunction new)
    (updatePamIfNumeric pam (some new) (irRequired (F := F)).keys)

/-- carbon_cycle_mod.py:199-220: the parameter part of `reset_co2_hold`. -/
def irUpdate (k : IR F) (pamset_carbon : Dict (PyVal F)) : Except PyErr (IR F) := do
  let new ← processFlat pamset_carbon
  let k := { k with pam := irNewPam k.pam new }
  if new.has "rs_function" || new.has "rb_function" then precalcR k else .ok k

/-- carbon_cycle_mod.py:176-220 `reset_co2_hold`. -/
def irReset (k : IR F) (pamset_carbon : Option (Dict (PyVal F))) : Except PyErr (IR F) := do
  let k ← resetHold k
  match pamset_carbon with
  | none => .ok k
  | some p => irUpdate k p

/-- carbon_cycle_mod.py:129-174 the constructor with
common_carbon_cycle_functions.py:86-127 (a parameter set is always given by the handler).
Simplification: a negative `idtm` is rejected here. -/
def irCreate (emiconc pamset_carbon : Dict (PyVal F)) : Except PyErr (IR F) := do
  let p ← processFlat pamset_carbon
  let time := cutAndCheckPamset timeRequired emiconc []
  let pam ← takeOutMissing (cutAndCheckPamset irRequired p irUsed)
  let idtm ← pamI time "idtm"
  let nystart ← pamI time "nystart"
  let nyend ← pamI time "nyend"
  if idtm < 0 then .error .valueError else do
    let mixed ← pamF pam "mixed_carbon"
    let k ← irReset
      { idtm := idtm, nystart := nystart, years_tot := nyend - nystart + 1, pam := pam,
        rs := fun _ => 0.0, rb := fun _ => 0.0,
        hold := { yCO2 := 0.0, xCO2 := 0.0, sCO2 := fun _ => 0.0, emCO2_prev := 0.0,
                  dfnpp := fun _ => 0.0, ss1 := 0.0, sums := 0.0, solFb := 1.0, mlFb := mixed } }
      (some pam)
    precalcR k

/-- carbon_cycle_mod.py:488-599 `co2em2conc` called by the handler. A year before `nystart` is an
`IndexError` here (the code would wrap around; a run never asks for one). `idtm` is not negative
after construction. -/
def irStep (k : IR F) (yr : Int) (em : F) (fb : Option (Dict F)) : Except PyErr (F × IR F) := do
  let p ← irPams k
  if k.idtm ≤ 0 then .error .zeroDivision
  else if yr < k.nystart ∨ k.years_tot ≤ yr - k.nystart then .error .indexError
  else
    let hold := Carbon.co2em2conc p k.hold (yr - k.nystart).toNat em (fb.bind (fun d => d.get? "dtemp"))
    return (hold.xCO2, { k with hold := hold })

/-- `carbon_cycle_mod.CarbonCycleModel` as the handler uses it. -/
def irOps : CarbonOps F (IR F) := { create := irCreate, step := irStep, reset := irReset }

/-! ## The box model -/

/-- The attributes of the box model object. -/
structure BoxM (F : Type) where
  pam : Dict (PyVal F)
  pools : Box.State F

/-- The parameters a year reads. -/
def boxPams (k : BoxM F) : Except PyErr (Box.Pams F) := do
  let beta_f ← pamF k.pam "beta_f"
  let land_temp_sensitivity ← pamF k.pam "land_temp_sensitivity"
  let soil_respiration_rate ← pamF k.pam "soil_respiration_rate"
  let ocean_mixed_layer_depth ← pamF k.pam "ocean_mixed_layer_depth"
  let ocean_exchange_rate ← pamF k.pam "ocean_exchange_rate"
  let vegetation_to_soil_fraction ← pamF k.pam "vegetation_to_soil_fraction"
  let ocean_solubility_base ← pamF k.pam "ocean_solubility_base"
  let ocean_solubility_temp_coeff ← pamF k.pam "ocean_solubility_temp_coeff"
  return { beta_f, land_temp_sensitivity, soil_respiration_rate, ocean_mixed_layer_depth,
           ocean_exchange_rate, vegetation_to_soil_fraction, ocean_solubility_base,
           ocean_solubility_temp_coeff }

/-- carbon_cycle_mod_box.py:180-198 `reset_co2_hold` with carbon_cycle_abstract.py:60-82. -/
def boxReset (k : BoxM F) (pamset_carbon : Option (Dict (PyVal F))) : Except PyErr (BoxM F) :=
  .ok { pam := updatePamIfNumeric k.pam pamset_carbon (boxRequired (F := F)).keys, pools := Box.reset }

/-- carbon_cycle_abstract.py:38-58 the constructor (time parameters are checked but not used). -/
def boxCreate (_emiconc pamset_carbon : Dict (PyVal F)) : Except PyErr (BoxM F) :=
  let pam := cutAndCheckPamset boxRequired pamset_carbon []
  boxReset ⟨pam, Box.reset⟩ (some pam)

/-- carbon_cycle_mod_box.py:52-118 `co2em2conc`. -/
def boxStep (k : BoxM F) (_yr : Int) (em : F) (fb : Option (Dict F)) : Except PyErr (F × BoxM F) := do
  let p ← boxPams k
  let s := Box.co2em2conc p k.pools em (fb.bind (fun d => d.get? "dtemp"))
  return (s.atmospheric_co2, { k with pools := s })

/-- `carbon_cycle_mod_box.CarbonCycleModel` as the handler uses it. -/
def boxOps : CarbonOps F (BoxM F) := { create := boxCreate, step := boxStep, reset := boxReset }

end
end Verif.Model.CarbonInst
