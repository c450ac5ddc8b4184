import Verif.Py.Basic

/-!
# Box carbon cycle: `carbon_cycle/carbon_cycle_mod_box.py`
-/

namespace Verif.Model.Box
open Verif.Py

/-- The numeric entries of `self.pamset` the box model reads
(carbon_cycle_mod_box.py:19-28; `ocean_mixed_layer_depth` is accepted but never read). -/
structure Pams (F : Type) where
  beta_f : F
  land_temp_sensitivity : F
  soil_respiration_rate : F
  ocean_mixed_layer_depth : F
  ocean_exchange_rate : F
  vegetation_to_soil_fraction : F
  ocean_solubility_base : F
  ocean_solubility_temp_coeff : F

/-- carbon_cycle_mod_box.py:19-28 `carbon_cycle_model_required_pamset`. -/
def Pams.default {F : Type} [OfScientific F] [Neg F] : Pams F :=
  { beta_f := 0.287, land_temp_sensitivity := 0.1, soil_respiration_rate := 0.02,
    ocean_mixed_layer_depth := 25.0, ocean_exchange_rate := 0.01,
    vegetation_to_soil_fraction := 0.1, ocean_solubility_base := 0.02,
    ocean_solubility_temp_coeff := -0.01 }

/-- The five pools (attributes of the model object), carbon_cycle_mod_box.py:193-197. -/
structure State (F : Type) where
  atmospheric_co2 : F
  vegetation_carbon : F
  soil_carbon : F
  ocean_mixed_layer_carbon : F
  ocean_deep_carbon : F

section
variable {F : Type} [Add F] [Sub F] [Mul F] [Div F] [OfScientific F] [LT F] [DecidableLT F]
  [MathFn F]

/-- common_carbon_cycle_functions.py:20 `PPM_CO2_TO_PG_C`. -/
def ppmToPgC : F := 2.123

/-- carbon_cycle_mod_box.py:193-197 `reset_co2_hold` (the pools; the parameter update is
`updatePamIfNumeric` in `Verif/Model/Utils.lean`). -/
def reset : State F := ⟨278.0, 600.0, 3000.0, 0.0, 0.0⟩

/-- carbon_cycle_mod_box.py:137-146 `calculate_npp` for one value of CO2; Python's `max(0.0, x)`. -/
def calculateNpp (p : Pams F) (co2 dtemp : F) : F :=
  let temp_effect := p.land_temp_sensitivity * dtemp
  let co2_fertilization := p.beta_f * MathFn.log (co2 / 278.0)
  let x := 60.0 + co2_fertilization - temp_effect
  if 0.0 < x then x else 0.0

/-- carbon_cycle_mod_box.py:169-177 `calculate_ocean_uptake` for one value of CO2. -/
def calculateOceanUptake (p : Pams F) (co2 dtemp : F) : F :=
  let solubility := p.ocean_solubility_base * (1.0 + p.ocean_solubility_temp_coeff * dtemp)
  solubility * (co2 - 278.0)

/-- carbon_cycle_mod_box.py:75-78: `feedback_dict.get("dtemp", 0.0)`, `none` when there is no
feedback dictionary or no such key. -/
def dtempOf (fb : Option F) : F := fb.getD 0.0

/-- carbon_cycle_mod_box.py:74-118 `co2em2conc`: the new pools; the returned concentration is
`atmospheric_co2` of the result. -/
def co2em2conc (p : Pams F) (s : State F) (em : F) (fb : Option F) : State F :=
  let dt : F := 1.0
  let dtemp := dtempOf fb
  let emissions := em
  let npp := calculateNpp p s.atmospheric_co2 dtemp
  let vegetation_to_soil := s.vegetation_carbon * p.vegetation_to_soil_fraction
  let soil_respiration := s.soil_carbon * p.soil_respiration_rate
  let vegetation_carbon := s.vegetation_carbon + (npp - vegetation_to_soil) * dt
  let soil_carbon := s.soil_carbon + (vegetation_to_soil - soil_respiration) * dt
  let ocean_uptake := calculateOceanUptake p s.atmospheric_co2 dtemp
  let mixed_to_deep := s.ocean_mixed_layer_carbon * p.ocean_exchange_rate
  let deep_to_mixed := s.ocean_deep_carbon * p.ocean_exchange_rate
  let ocean_mixed_layer_carbon :=
    s.ocean_mixed_layer_carbon + (ocean_uptake - mixed_to_deep + deep_to_mixed) * dt
  let ocean_deep_carbon := s.ocean_deep_carbon + (mixed_to_deep - deep_to_mixed) * dt
  let net_flux := emissions - ocean_uptake + soil_respiration - npp
  let atmospheric_co2 := s.atmospheric_co2 + net_flux / ppmToPgC * dt
  ⟨atmospheric_co2, vegetation_carbon, soil_carbon, ocean_mixed_layer_carbon, ocean_deep_carbon⟩

/-- A sequence of yearly calls as made by the concentration handler
(concentrations_emissions_handler.py:759-765 and 775-783): one (emission, feedback) pair per year. -/
def run (p : Pams F) (s : State F) (inputs : List (F × Option F)) : State F :=
  inputs.foldl (fun s i => co2em2conc p s i.1 i.2) s

/-- carbon_cycle_mod_box.py:209-224 `get_carbon_cycle_output`: the two columns, computed from the
concentration and temperature series only. -/
def outputNpp (p : Pams F) (conc dtemp : List F) : List F :=
  List.zipWith (calculateNpp p) conc dtemp
/-- carbon_cycle_mod_box.py:219-221: the second column. -/
def outputOceanFlux (p : Pams F) (conc dtemp : List F) : List F :=
  List.zipWith (calculateOceanUptake p) conc dtemp

end
end Verif.Model.Box
