import Verif.Model.Driver
import Verif.Model.TwoLayer
import Verif.Model.UDM

/-!
# The two thermal models as the driver uses them

`thermal_model/two_layer_ocean.py`, `thermal_model/upwelling_diffusion_model.py` and
`thermal_model/abstract_thermal_model.py`.
-/

namespace Verif.Model.ThermalInst
open Verif.Py Verif.Model Verif.Model.Driver

section
variable {F : Type} [Add F] [Sub F] [Mul F] [Div F] [Neg F] [OfScientific F] [LT F] [DecidableLT F]
  [MathFn F]

/-- `TwoLayerOceanModel.thermal_model_required_pamset`, two_layer_ocean.py:24-37. -/
def twoLayerRequired : Dict (PyVal F) :=
  [("lambda", .flt (3.74 / 3.0)), ("mixed", .int 50), ("deep", .int 1200), ("k", .flt 0.5),
   ("ocean_efficacy", .int 1), ("foan", .flt 0.61), ("foas", .flt 0.81),
   ("delta_lambda_aero", .flt 0.0)]

/-- The numbers the model reads from its parameter set, two_layer_ocean.py:73-90 (a value that is
not a number raises `TypeError` in the arithmetic). -/
def twoLayerPams (p : Dict (PyVal F)) : Except PyErr (TwoLayer.Pams F) := do
  let l ← Handler.pamF p "lambda"
  let m ← Handler.pamF p "mixed"
  let d ← Handler.pamF p "deep"
  let k ← Handler.pamF p "k"
  let e ← Handler.pamF p "ocean_efficacy"
  let n ← Handler.pamF p "foan"
  let s ← Handler.pamF p "foas"
  let a ← Handler.pamF p "delta_lambda_aero"
  return ⟨l, m, d, k, e, n, s, a⟩

/-- `TwoLayerOceanModel(pamset)`, abstract_thermal_model.py:49-67 and two_layer_ocean.py:52-90. -/
def twoLayerCreate (pamset : Option (Dict (PyVal F))) :
    Except PyErr (TwoLayer.Pams F × TwoLayer.State F) := do
  let p ← twoLayerPams (cutAndCheckPamset twoLayerRequired (pamset.getD []) [])
  return (p, TwoLayer.init p)

/-- The dictionary returned by `energy_budget`, two_layer_ocean.py:220-232. -/
def outDict (o : TwoLayer.Out F) : Dict F :=
  [("dtemp", o.dtemp), ("dtemp_fast", o.dtemp_fast), ("dtemp_slow", o.dtemp_slow), ("RIB", o.RIB),
   ("OHCTOT", o.OHCTOT), ("OHC_MIXED", o.OHC_MIXED), ("OHC_DEEP", o.OHC_DEEP),
   ("dtemp_sea", o.dtemp_sea), ("OHC700", o.OHC700)]

/-- The class as the driver uses it. Volcanic rows of different lengths are rejected (numpy
`ValueError`; simplification: numpy would repeat a row of length one). -/
def twoLayerOps : ThermalOps F (TwoLayer.Pams F × TwoLayer.State F) :=
  { create := twoLayerCreate
    setFeedback := fun t w => (t.1, TwoLayer.setFeedback t.1 t.2 w)
    budget := fun t fn fs vn vs =>
      if vn.length = vs.length then
        let r := TwoLayer.energyBudget t.1 t.2 fn fs vn vs
        .ok (outDict r.2, (t.1, r.1))
      else .error .valueError
    outputs := twoLayerOutputs }

/-- `UpwellingDiffusionModel.thermal_model_required_pamset`, upwelling_diffusion_model.py:111-132. -/
def udmRequired : Dict (PyVal F) :=
  [("rlamdo", .flt 15.0), ("akapa", .flt 0.66), ("cpi", .flt 0.21), ("W", .flt 2.2), ("beto", .flt 6.9),
   ("threstemp", .flt 7.0), ("lambda", .flt 0.61), ("mixed", .flt 107.0), ("foan", .flt 0.61), ("foas", .flt 0.81),
   ("ebbeta", .flt 0.0), ("lm", .int 40), ("ldtime", .int 12), ("ocean_efficacy", .flt 1.0),
   ("delta_lambda_aero", .flt 0.0)]

/-- The numbers the model reads from its parameter set, upwelling_diffusion_model.py:57-72 and 166-169. A number of
layers that is no integer raises `TypeError` in `np.ones`, a negative one `ValueError`. Simplification: a number of
sub-steps that is no integer raises here, in the code with the first year. -/
def udmPams (p : Dict (PyVal F)) : Except PyErr (UDM.Pams F) := do
  let akapa ← Handler.pamF p "akapa"
  let l ← Handler.pamF p "lambda"
  let ldtime ← Handler.pamI p "ldtime"
  let foan ← Handler.pamF p "foan"
  let rlamdo ← Handler.pamF p "rlamdo"
  let ebbeta ← Handler.pamF p "ebbeta"
  let foas ← Handler.pamF p "foas"
  let lm ← Handler.pamI p "lm"
  let mixed ← Handler.pamF p "mixed"
  let beto ← Handler.pamF p "beto"
  let e ← Handler.pamF p "ocean_efficacy"
  let threstemp ← Handler.pamF p "threstemp"
  let W ← Handler.pamF p "W"
  let cpi ← Handler.pamF p "cpi"
  let a ← Handler.pamF p "delta_lambda_aero"
  if lm < 0 then .error .valueError
  else return { rlamdo := rlamdo, akapa := akapa, cpi := cpi, W := W, beto := beto, threstemp := threstemp, lambda := l,
                mixed := mixed, foan := foan, foas := foas, ebbeta := ebbeta, lm := lm.toNat, ldtime := ldtime,
                ocean_efficacy := e, delta_lambda_aero := a }

/-- `UpwellingDiffusionModel(pamset)`, abstract_thermal_model.py:49-67 and upwelling_diffusion_model.py:151-182. If
several things are wrong with the parameters, the code may name another of them. -/
def udmCreate (pamset : Option (Dict (PyVal F))) : Except PyErr (UDM.Model F) := do
  let p ← udmPams (cutAndCheckPamset udmRequired (pamset.getD []) [])
  UDM.create p

/-- The numbers in the dictionary returned by `energy_budget`, upwelling_diffusion_model.py:644-662. The two
temperature profiles in it are arrays; no output names them, so they are left out. -/
def udmOutDict (o : UDM.Out F) : Dict F :=
  [("dtemp", o.dtemp), ("dtempnh", o.dtempnh), ("dtempsh", o.dtempsh), ("dtemp_air", o.dtemp_air),
   ("dtempnh_air", o.dtempnh_air), ("dtempsh_air", o.dtempsh_air), ("dtemp_sea", o.dtemp_sea),
   ("dtempnh_sea", o.dtempnh_sea), ("dtempsh_sea", o.dtempsh_sea), ("RIBN", o.RIBN), ("RIBS", o.RIBS), ("RIB", o.RIB),
   ("OHC700", o.OHC700), ("OHCTOT", o.OHCTOT), ("anomalous_radiation", o.anomalous_radiation)]

/-- The class as the driver uses it, for any tridiagonal solver. -/
def udmOps (solve : UDM.Solver F) : ThermalOps F (UDM.Model F) :=
  { create := udmCreate
    setFeedback := UDM.setFeedback
    budget := fun t fn fs vn vs => do
      let r ← UDM.energyBudget solve t fn fs vn vs
      return (udmOutDict r.1, r.2)
    outputs := udmOutputs }

end
end Verif.Model.ThermalInst
