import Verif.Model.BoxCarbon
import Verif.Py.RealInst

/-!
# C22, C23: box carbon cycle (exact arithmetic)
-/

namespace Verif.Props
open Verif.Py Verif.Model.Box

/-- Specification: total carbon (PgC) of the five reported pools; 2.123 PgC per ppm CO2. -/
noncomputable def totalCarbon (s : State ℝ) : ℝ :=
  2.123 * s.atmospheric_co2 + s.vegetation_carbon + s.soil_carbon + s.ocean_mixed_layer_carbon
    + s.ocean_deep_carbon

/-- C22, one year: carbon changes by exactly the emission, whatever parameters, state and
temperature. -/
theorem C22_one_year (p : Pams ℝ) (s : State ℝ) (em : ℝ) (fb : Option ℝ) :
    totalCarbon (co2em2conc p s em fb) = totalCarbon s + em := by
  simp only [totalCarbon, co2em2conc, ppmToPgC]
  norm_num
  ring

/-- C22: after any emission/temperature history the total is the initial content plus all
emissions. -/
theorem C22_conservation (p : Pams ℝ) (s : State ℝ) (inputs : List (ℝ × Option ℝ)) :
    totalCarbon (run p s inputs) = totalCarbon s + (inputs.map Prod.fst).sum := by
  induction inputs generalizing s with
  | nil => simp [run]
  | cons i l ih =>
    have h := ih (co2em2conc p s i.1 i.2)
    rw [C22_one_year] at h
    simp only [run, List.foldl_cons, List.map_cons, List.sum_cons] at h ⊢
    rw [h]; ring

/-- Concrete instance of C22: from the reset state, three years with a temperature signal. -/
example : totalCarbon (run Pams.default (reset : State ℝ) [(1, none), (2.5, some 0.3), (-1, some 2)])
    = 2.123 * 278 + 600 + 3000 + 2.5 := by
  rw [C22_conservation]; norm_num [totalCarbon, reset]

/-- C23 (rest, general form): the pre-industrial pools are a fixed point for zero emission and zero
temperature change whenever litter fall and soil respiration both equal the base productivity. -/
theorem C23_rest_general (p : Pams ℝ) (hv : 600 * p.vegetation_to_soil_fraction = 60)
    (hs : 3000 * p.soil_respiration_rate = 60) (fb : Option ℝ) (hfb : fb = none ∨ fb = some 0) :
    co2em2conc p (reset : State ℝ) 0 fb = reset := by
  have hd : dtempOf fb = 0 := by rcases hfb with rfl | rfl <;> norm_num [dtempOf]
  have h278 : (278.0 : ℝ) / 278.0 = 1 := by norm_num
  have hn : calculateNpp p (278.0) 0 = (60 : ℝ) := by
    unfold calculateNpp
    rw [h278]
    norm_num
  have ho : calculateOceanUptake p (278.0) 0 = (0 : ℝ) := by
    unfold calculateOceanUptake; simp
  simp only [co2em2conc, reset, hd, hn, ho, ppmToPgC, State.mk.injEq]
  norm_num
  refine ⟨?_, ?_, ?_⟩ <;> linarith

/-- C23: with default parameters, zero emissions and zero (or absent) temperature feedback all pools
stay at their pre-industrial values for any number of years. -/
theorem C23_rest (inputs : List (ℝ × Option ℝ))
    (h : ∀ i ∈ inputs, i.1 = 0 ∧ (i.2 = none ∨ i.2 = some 0)) :
    run Pams.default (reset : State ℝ) inputs = ⟨278, 600, 3000, 0, 0⟩ := by
  have hr : (reset : State ℝ) = ⟨278, 600, 3000, 0, 0⟩ := by norm_num [reset]
  have key : ∀ l : List (ℝ × Option ℝ), (∀ i ∈ l, i.1 = 0 ∧ (i.2 = none ∨ i.2 = some 0)) →
      run Pams.default (reset : State ℝ) l = reset := by
    intro l
    induction l with
    | nil => intro _; rfl
    | cons i l ih =>
      intro hl
      obtain ⟨h0, hfb⟩ := hl i (by simp)
      have := C23_rest_general (Pams.default) (by norm_num [Pams.default])
        (by norm_num [Pams.default]) i.2 hfb
      simp only [run, List.foldl_cons] at ih ⊢
      rw [h0, this]
      exact ih (fun j hj => hl j (by simp [hj]))
  rw [key inputs h, hr]

example : ∀ i ∈ List.replicate 350 ((0 : ℝ), (none : Option ℝ)), i.1 = 0 ∧ (i.2 = none ∨ i.2 = some 0) := by
  intro i hi; rw [List.eq_of_mem_replicate hi]; simp

/-- C23: net primary production is never negative, for every parameter set, CO2 and temperature. -/
theorem C23_npp_nonneg (p : Pams ℝ) (co2 dtemp : ℝ) : 0 ≤ calculateNpp p co2 dtemp := by
  unfold calculateNpp
  dsimp only
  split
  · next h => norm_num at h ⊢; linarith
  · norm_num

/-- C23: and is exactly the unclipped formula whenever that formula is non-negative. -/
theorem C23_npp_value (p : Pams ℝ) (co2 dtemp : ℝ)
    (h : 0 ≤ 60 + p.beta_f * Real.log (co2 / 278) - p.land_temp_sensitivity * dtemp) :
    calculateNpp p co2 dtemp = 60 + p.beta_f * Real.log (co2 / 278) - p.land_temp_sensitivity * dtemp := by
  unfold calculateNpp
  norm_num
  intro h'
  linarith

/-- The mixed layer depth parameter of the box model has no effect on anything it computes. -/
theorem C23_mixed_depth_unused (p : Pams ℝ) (d : ℝ) (s : State ℝ) (inputs : List (ℝ × Option ℝ)) :
    run { p with ocean_mixed_layer_depth := d } s inputs = run p s inputs := rfl

end Verif.Props
