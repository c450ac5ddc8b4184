import Verif.Model.Utils

/-!
# Component selection: `component_factory_functions.py`, `ciceroscm.py`, `input_handler.py`
-/

namespace Verif.Model.Factory
open Verif.Py Verif.Model

variable {F : Type}

/-- The carbon cycles to choose from, component_factory_functions.py. -/
inductive CarbonKind where
  | impulseResponse | box
  deriving DecidableEq, Repr

/-- The thermal models to choose from, component_factory_functions.py. -/
inductive ThermalKind where
  | upwellingDiffusion | twoLayer
  deriving DecidableEq, Repr

/-- `model_type == "name"` for an arbitrary Python value. -/
def isStr (v : PyVal F) (s : String) : Bool :=
  match v with
  | .str t => t == s
  | _ => false

/-- `create_carbon_cycle_model`, component_factory_functions.py:9-37 (class selection only). -/
def createCarbonCycleModel (model_type : PyVal F) : Except PyErr CarbonKind :=
  if isStr model_type "default" then .ok .impulseResponse
  else if isStr model_type "box" then .ok .box
  else .error .valueError

/-- `create_thermal_model`, component_factory_functions.py:40-63. -/
def createThermalModel (model_type : PyVal F) : Except PyErr ThermalKind :=
  if isStr model_type "default" then .ok .upwellingDiffusion
  else if isStr model_type "twolayer" then .ok .twoLayer
  else .error .valueError

/-- The required keys of the driver configuration, ciceroscm.py:97. -/
def driverRequired : Dict (PyVal F) :=
  [("nystart", .int 1750), ("nyend", .int 2100), ("emstart", .int 1850), ("idtm", .int 24)]

/-- The optional keys of the driver configuration, ciceroscm.py:99. -/
def driverUsed : Dict (PyVal F) :=
  [("carbon_cycle_model", .str "default"), ("thermal_model", .str "default")]

/-- `self.cfg`, ciceroscm.py:96-100. -/
def driverCfg (cfg : Dict (PyVal F)) : Dict (PyVal F) :=
  cutAndCheckPamset driverRequired cfg driverUsed

/-- `InputHandler.thermal_model(self.cfg)`, input_handler.py:549-564 called at ciceroscm.py:105. -/
def thermalName (cfg : Dict (PyVal F)) : PyVal F :=
  match Dict.get? cfg "thermal_model" with
  | some v => v
  | none => .str "default"

/-- `InputHandler.carbon_model(self.cfg)`, input_handler.py:566-581 called at ciceroscm.py:106. -/
def carbonName (cfg : Dict (PyVal F)) : PyVal F :=
  match Dict.get? cfg "carbon_cycle_model" with
  | some v => v
  | none => .str "default"

/-- `check_pamset(pamset)` as far as the carbon cycle name is concerned: required keys,
concentrations_emissions_handler.py:48-64 (the values are numbers; only their keys and numeric
nature matter here). -/
def handlerRequired [OfScientific F] [Neg F] [Div F] : Dict (PyVal F) :=
  [("qbmb", .flt 0.0), ("qo3", .flt 0.5), ("qdirso2", .flt (-0.00308)),
   ("qindso2", .flt (-0.97 / 57.052577209999995)), ("qbc", .flt 0.0279), ("qoc", .flt (-0.00433)),
   ("qh2o_ch4", .flt 0.091915), ("ref_yr", .int 2010), ("qnmvoc", .flt 0.0), ("qnh3", .flt 0.0),
   ("qnox", .flt 0.0), ("idtm", .int 24), ("nystart", .int 1750), ("nyend", .int 2100),
   ("emstart", .int 1850)]

/-- concentrations_emissions_handler.py:71-79. -/
def handlerUsed : Dict (PyVal F) :=
  [("lifetime_mode", .str "TAR"), ("just_one", .str "CO2"), ("carbon_cycle_model", .str "default"),
   ("idtm", .int 24), ("nystart", .int 1750), ("nyend", .int 2100), ("emstart", .int 1850)]

/-- `check_pamset(pamset)`, concentrations_emissions_handler.py:26-81; `None` is the empty set. The
two insertions into the caller's dictionary are part of the result only. -/
def checkPamset [OfScientific F] [Neg F] [Div F] (pamset : Option (Dict (PyVal F))) : Dict (PyVal F) :=
  let p := pamset.getD []
  let p := if p.has "lifetime_mode" then p else p.set "lifetime_mode" (.str "TAR")
  let p := if p.has "carbon_cycle_model" then p else p.set "carbon_cycle_model" (.str "default")
  cutAndCheckPamset handlerRequired p handlerUsed

/-- ciceroscm.py:116-126: the parameter set handed to the concentrations/emissions handler
(`rs_function`/`rb_function` entries are copied too, but `check_pamset` drops them). -/
def driverEmiconc (self_cfg : Dict (PyVal F)) : Except PyErr (Dict (PyVal F)) := do
  let p : Dict (PyVal F) := [("carbon_cycle_model", carbonName self_cfg)]
  let p := p.set "emstart" (← self_cfg.getE "emstart")
  let p := p.set "nystart" (← self_cfg.getE "nystart")
  let p := p.set "nyend" (← self_cfg.getE "nyend")
  let p := p.set "idtm" (← self_cfg.getE "idtm")
  return p

/-- The components chosen by `CICEROSCM.__init__` (emission or concentration run):
ciceroscm.py:96-129 and concentrations_emissions_handler.py:190, 207-215. -/
def chooseComponents [OfScientific F] [Neg F] [Div F] (cfg : Dict (PyVal F)) :
    Except PyErr (ThermalKind × CarbonKind) := do
  let self_cfg := driverCfg cfg
  let t ← createThermalModel (thermalName self_cfg)
  let pam := checkPamset (some (← driverEmiconc self_cfg))
  let c ← createCarbonCycleModel (← pam.getE "carbon_cycle_model")
  return (t, c)

end Verif.Model.Factory
