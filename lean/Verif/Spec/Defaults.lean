import Verif.Py.Dict

/-! # The default parameter values documented in the README (C75), independent of the model -/

namespace Verif.Spec
open Verif.Py

section
variable {F : Type} [Neg F] [Div F] [OfScientific F]

/-- README.md:66-79: parameters of the upwelling-diffusion model. -/
def udmDocs : Dict (PyVal F) :=
  [("rlamdo", .flt 15.0), ("akapa", .flt 0.66), ("cpi", .flt 0.21), ("W", .flt 2.2), ("beto", .flt 6.9),
   ("threstemp", .flt 7.0), ("lambda", .flt 0.61), ("mixed", .flt 107.0), ("ocean_efficacy", .flt 1.0),
   ("foan", .flt 0.61), ("foas", .flt 0.81), ("ebbeta", .flt 0.0), ("lm", .int 40), ("ldtime", .int 12)]

/-- README.md:82-88: parameters of the two-layer model. -/
def twoLayerDocs : Dict (PyVal F) :=
  [("lambda", .flt (3.74 / 3.0)), ("mixed", .int 50), ("deep", .int 1200), ("k", .flt 0.5),
   ("ocean_efficacy", .flt 1.0), ("foan", .flt 0.61), ("foas", .flt 0.81)]

/-- README.md:93-103: parameters of emissions and concentrations. Without `qindso2` (documented with two digits
only), `idtm` (fixed with the instance, C04) and `just_one` (no default). -/
def emiconcDocs : Dict (PyVal F) :=
  [("qbmb", .flt 0.0), ("qo3", .flt 0.5), ("qdirso2", .flt (-0.00308)), ("qbc", .flt 0.0279),
   ("qoc", .flt (-0.00433)), ("qh2o_ch4", .flt 0.091915), ("ref_yr", .int 2010), ("lifetime_mode", .str "TAR")]

/-- README.md:107-111: parameters of the default carbon cycle. -/
def carbonDocs : Dict (PyVal F) :=
  [("beta_f", .flt 0.287), ("mixed_carbon", .flt 75.0), ("ml_fracmax", .flt 0.5), ("ml_t_half", .flt 0.5),
   ("ml_w_sigmoid", .flt 3.0), ("t_half", .flt 0.5), ("w_sigmoid", .int 7), ("t_threshold", .int 4),
   ("w_threshold", .int 7), ("solubility_sens", .flt 0.02), ("solubility_limit", .flt 0.5)]

/-- README.md:114-121: parameters of the box carbon cycle. -/
def boxDocs : Dict (PyVal F) :=
  [("beta_f", .flt 0.287), ("land_temp_sensitivity", .flt 0.1), ("soil_respiration_rate", .flt 0.02),
   ("ocean_mixed_layer_depth", .flt 25.0), ("ocean_exchange_rate", .flt 0.01),
   ("vegetation_to_soil_fraction", .flt 0.1), ("ocean_solubility_base", .flt 0.02),
   ("ocean_solubility_temp_coeff", .flt (-0.01))]

/-- The parameter set `q` is `p` with one parameter added: one that `p` does not give, with its documented value. -/
def AddsDefault (docs p q : Dict (PyVal F)) : Prop :=
  ∃ k v, (k, v) ∈ docs ∧ k ∉ Dict.keys p ∧ q = Dict.set p k v

end
end Verif.Spec
