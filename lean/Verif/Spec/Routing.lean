/-! # Specification for C45: which component uses a parameter -/

namespace Verif.Spec

/-- The components a parameter can belong to. -/
inductive Component where
  | thermal | carbon | emiconc
  deriving DecidableEq

/-- The thermal parameters a distribution is documented to know, README/_configdistro.py:73-86. -/
def thermalDocumented : List String :=
  ["rlamdo", "akapa", "cpi", "W", "beto", "lambda", "mixed", "ocean_efficacy",
   "delta_lambda_aero", "threstemp", "lm", "ldtime"]

/-- All parameters the upwelling-diffusion model reads, upwelling_diffusion_model.py:111-132. -/
def thermalRead : List String :=
  ["rlamdo", "akapa", "cpi", "W", "beto", "threstemp", "lambda", "mixed", "foan", "foas", "ebbeta",
   "lm", "ldtime", "ocean_efficacy", "delta_lambda_aero"]

/-- All parameters the handler of emissions and concentrations reads,
concentrations_emissions_handler.py:48-79. -/
def handlerRead : List String :=
  ["qbmb", "qo3", "qdirso2", "qindso2", "qbc", "qoc", "qh2o_ch4", "ref_yr", "qnmvoc", "qnh3", "qnox",
   "idtm", "nystart", "nyend", "emstart", "lifetime_mode", "just_one", "carbon_cycle_model"]

/-- Scalar parameters of the impulse-response carbon cycle, carbon_cycle_mod.py:80-94. -/
def carbonScalars : List String :=
  ["beta_f", "mixed_carbon", "ml_w_sigmoid", "ml_fracmax", "ml_t_half", "t_half", "w_sigmoid",
   "t_threshold", "w_threshold", "solubility_sens", "solubility_limit", "ml_depth_min",
   "preindustrial_co2_conc"]

/-- Impulse-response function parameters: names beginning with "rb_" or "rs_". -/
def IsResponseName (pam : String) : Prop :=
  ∃ rest : String, pam = "rb_" ++ rest ∨ pam = "rs_" ++ rest

/-- `IsHome pam c`: parameter `pam` belongs in the set of component `c`. -/
inductive IsHome (pam : String) : Component → Prop where
  | thermal : pam ∈ thermalDocumented → IsHome pam .thermal
  | carbon : pam ∉ thermalDocumented → (pam ∈ carbonScalars ∨ IsResponseName pam) →
      IsHome pam .carbon
  | emiconc : pam ∉ thermalDocumented → pam ∉ carbonScalars → ¬ IsResponseName pam →
      IsHome pam .emiconc

end Verif.Spec
