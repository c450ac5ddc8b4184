import Verif.Props.C18_C19

/-!
# C69: the carbon in the ocean surface layer comes from the air-sea fluxes; C70: land uptake
-/

namespace Verif.Props
open Verif.Py Verif.Model.Carbon

/-! ## Specification -/

/-- Dissolved carbon after the flux history `s` (ppm per sub-step of length `dt`), when a fraction `r k` of the carbon
taken up `k` sub-steps ago is still in the surface layer: trapezoidal rule, `c` converts to concentration. -/
noncomputable def dissolvedSpec (c dt : ℝ) (r s : ℕ → ℝ) (n : ℕ) : ℝ :=
  c * dt * (s n / 2 + ∑ j ∈ Finset.range n, s j * r (n - j))

/-- The same as the code has it: the flux of sub-step `n - 1` is left out and all older ones are taken one sub-step
younger than they are. -/
noncomputable def dissolvedCode (c dt : ℝ) (r s : ℕ → ℝ) (n : ℕ) : ℝ :=
  c * dt * (s n / 2 + ∑ j ∈ Finset.range (n - 1), s j * r (n - 1 - j))

/-- Micromoles per volume and ppm times metres of depth, for an ocean of 3.62e14 m² and an exchange time of 9.06
years. -/
noncomputable def toConc : ℝ := 1.722e17 / (3.62e14 * 9.06)

variable (p : Pams ℝ) (E : ℕ → ℝ) (T : ℕ → Option ℝ) (st0 : State ℝ)

/-- **C69** (what holds) At every sub-step of every emission run the ocean's partial pressure is the solubility factor
of the year's temperature times the pressure of the dissolved carbon, the dissolved carbon being the sum over past
fluxes in `dissolvedCode`, spread over the mixed layer depth of the year's temperature; and the atmosphere is
pre-industrial plus the flux (as a pressure difference) plus the mean of the two last ocean pressures. -/
theorem C69_partial (n : ℕ) :
    let st := subState p E T st0 (n + 1)
    let dT := (T (n / p.idtm)).getD 0
    st.yCO2 = solubilityTempFeedback p dT *
      pco2Of (dissolvedCode (toConc / mixedLayerTempFeedback p dT) (1 / p.idtm) p.rs st.sCO2 n) ∧
    st.xCO2 = p.preindustrial_co2_conc + st.sCO2 n + (st.yCO2 + (subState p E T st0 n).yCO2) / 2 := by
  intro st dT
  have e0 : (0.0 : ℝ) = 0 := by norm_num
  have hr := subStep_spec p (fnppFromTemp p ((T (n / p.idtm)).getD 0.0)) (E (n / p.idtm))
    (withFb p (subState p E T st0 n) (T (n / p.idtm))) n
  rw [show subStep p (fnppFromTemp p ((T (n / p.idtm)).getD 0.0)) (E (n / p.idtm))
    (withFb p (subState p E T st0 n) (T (n / p.idtm))) n = st from rfl] at hr
  constructor
  · rw [hr.yCO2]
    unfold partialPressure
    have h1 : st.solFb = solubilityTempFeedback p dT := by
      rw [hr.solFb]; simp only [withFb, dT, e0]
    have h2 : st.mlFb = mixedLayerTempFeedback p dT := by
      rw [hr.mlFb]; simp only [withFb, dT, e0]
    rw [h1]
    congr 2
    unfold zCo2 dissolvedCode toConc
    rw [h2, fsum_range]
    have hs : (if 0 < n then ∑ j ∈ Finset.range (n - 1), st.sCO2 j * p.rs (n - 1 - j) else (0.0 : ℝ)) =
        ∑ j ∈ Finset.range (n - 1), st.sCO2 j * p.rs (n - 1 - j) := by
      split
      · rfl
      · next h =>
        have : n = 0 := by omega
        subst this
        simp [e0]
    rw [hs]
    simp only [PPMKG_TO_UMOL_PER_VOL, GE_COEFF, OCEAN_AREA, mofInt, Int.cast_natCast]
    norm_num
    ring
  · rw [hr.xCO2]
    have : (withFb p (subState p E T st0 n) (T (n / p.idtm))).yCO2 = (subState p E T st0 n).yCO2 := rfl
    rw [this]
    norm_num
    ring

/-- **C69** fails as coded: the ocean's partial pressure at a sub-step does not depend on the flux of the sub-step
before, whatever that flux was. -/
theorem C69_previous_flux_false (st : State ℝ) (n : ℕ) (hn : 0 < n) (x : ℝ) :
    partialPressure p { st with sCO2 := upd st.sCO2 (n - 1) x } n = partialPressure p st n := by
  unfold partialPressure zCo2
  have h1 : upd st.sCO2 (n - 1) x n = st.sCO2 n := by
    unfold upd
    rw [if_neg (by omega)]
  have h2 : fsum ((List.range (n - 1)).map (fun j => upd st.sCO2 (n - 1) x j * p.rs (n - 1 - j))) =
      fsum ((List.range (n - 1)).map (fun j => st.sCO2 j * p.rs (n - 1 - j))) := by
    apply fsum_map_congr
    intro j hj
    unfold upd
    rw [if_neg (by omega)]
  simp only [h1, h2]

/-- A single pulse of uptake `a` at sub-step `k`: half of it is dissolved at once, nothing at the next sub-step, and
from then on what the response leaves of it, one sub-step too young. -/
theorem C69_pulse (c dt : ℝ) (r : ℕ → ℝ) (a : ℝ) (k : ℕ) :
    let s : ℕ → ℝ := fun j => if j = k then a else 0
    dissolvedCode c dt r s k = c * dt * (a / 2) ∧ dissolvedCode c dt r s (k + 1) = 0 ∧
    (∀ m, dissolvedCode c dt r s (k + 2 + m) = c * dt * (a * r (m + 1))) ∧
    dissolvedSpec c dt r s k = c * dt * (a / 2) ∧ ∀ m, dissolvedSpec c dt r s (k + 1 + m) = c * dt * (a * r (m + 1)) := by
  intro s
  have sum0 : ∀ n (g : ℕ → ℝ), n ≤ k → ∑ j ∈ Finset.range n, s j * g j = 0 := by
    intro n g hn
    apply Finset.sum_eq_zero
    intro j hj
    have := Finset.mem_range.1 hj
    simp only [s]
    rw [if_neg (by omega), zero_mul]
  have sum1 : ∀ n (g : ℕ → ℝ), k < n → ∑ j ∈ Finset.range n, s j * g j = a * g k := by
    intro n g hn
    rw [Finset.sum_eq_single k]
    · simp [s]
    · intro j _ hj
      simp [s, hj]
    · intro h
      exact absurd (Finset.mem_range.2 hn) h
  have sk : s k = a := by simp [s]
  have sn : ∀ m, s (k + 1 + m) = 0 := by intro m; simp only [s]; rw [if_neg (by omega)]
  refine ⟨?_, ?_, ?_, ?_, ?_⟩
  · unfold dissolvedCode
    rw [sum0 (k - 1) (fun j => r (k - 1 - j)) (by omega), sk, add_zero]
  · unfold dissolvedCode
    rw [sum0 (k + 1 - 1) (fun j => r (k + 1 - 1 - j)) (by omega)]
    have := sn 0
    rw [add_zero] at this
    rw [this]
    ring
  · intro m
    unfold dissolvedCode
    rw [sum1 (k + 2 + m - 1) (fun j => r (k + 2 + m - 1 - j)) (by omega)]
    have := sn (m + 1)
    rw [show k + 1 + (m + 1) = k + 2 + m by omega] at this
    rw [this, show k + 2 + m - 1 - k = m + 1 by omega]
    ring
  · unfold dissolvedSpec
    rw [sum0 k (fun j => r (k - j)) (by omega), sk, add_zero]
  · intro m
    unfold dissolvedSpec
    rw [sum1 (k + 1 + m) (fun j => r (k + 1 + m - j)) (by omega), sn, show k + 1 + m - k = m + 1 by omega]
    ring

/-- The two sums agree if and only if the flux of the sub-step before and the ageing of the others do not matter. For a
constant flux of 1 and a response that keeps everything, one sub-step of flux is missing. -/
example (c dt : ℝ) (n : ℕ) (hn : 0 < n) : dissolvedSpec c dt (fun _ => 1) (fun _ => 1) n =
    dissolvedCode c dt (fun _ => 1) (fun _ => 1) n + c * dt := by
  unfold dissolvedSpec dissolvedCode
  obtain ⟨m, rfl⟩ : ∃ m, n = m + 1 := ⟨n - 1, by omega⟩
  simp
  ring

/-! ## C70 -/

/-- Extra plant production in sub-step `j`: none in the first sub-step, then the temperature-dependent productivity times
`beta_f` times the logarithm of the concentration at the end of the sub-step before, relative to pre-industrial. -/
noncomputable def production (j : ℕ) : ℝ :=
  if j = 0 then st0.dfnpp 0
  else fnppFromTemp p ((T (j / p.idtm)).getD 0) * p.beta_f *
    Real.log ((subState p E T st0 j).xCO2 / p.preindustrial_co2_conc)

/-- **C70** At every sub-step of every emission run the recorded productions are those of the concentrations passed
through. -/
theorem C70_production (n : ℕ) : ∀ j < n, (subState p E T st0 n).dfnpp j = production p E T st0 j := by
  have e0 : (0.0 : ℝ) = 0 := by norm_num
  induction n with
  | zero => intro j hj; omega
  | succ n ih =>
    intro j hj
    have hr := subStep_spec p (fnppFromTemp p ((T (n / p.idtm)).getD 0.0)) (E (n / p.idtm))
      (withFb p (subState p E T st0 n) (T (n / p.idtm))) n
    rw [show subStep p (fnppFromTemp p ((T (n / p.idtm)).getD 0.0)) (E (n / p.idtm))
      (withFb p (subState p E T st0 n) (T (n / p.idtm))) n = subState p E T st0 (n + 1) from rfl] at hr
    rcases Nat.lt_or_ge j n with h | h
    · rw [(subState_stable p E T st0 n (n + 1) (by omega) j h).2]
      exact ih j h
    · have : j = n := by omega
      subst this
      rw [hr.dfnpp]
      unfold production
      by_cases h0 : 0 < j
      · rw [if_pos h0, if_neg (by omega)]
        unfold upd
        rw [if_pos rfl, e0]
        rfl
      · have : j = 0 := by omega
        subst this
        simp [subState, withFb]

/-- **C70** The land uptake of sub-step `n` is its production minus what decays of the earlier productions: the
production of sub-step `j` decays at the rate `rb (n - 1 - j)`. The uptake plus the air-sea exchange is what the
emissions leave: see `netInput` in C19. -/
theorem C70_uptake (n : ℕ) (hst : st0.dfnpp 0 = 0) :
    fferSeries p (subState p E T st0 (n + 1)).dfnpp n =
      production p E T st0 n - 1 / p.idtm * ∑ j ∈ Finset.range n, production p E T st0 j * p.rb (n - 1 - j) := by
  unfold fferSeries
  have hd := C70_production p E T st0 (n + 1)
  rw [hd n (by omega)]
  have e0 : (0.0 : ℝ) = 0 := by norm_num
  have hs : (if 0 < n then sumf p (subState p E T st0 (n + 1)).dfnpp n else 0.0) =
      ∑ j ∈ Finset.range n, production p E T st0 j * p.rb (n - 1 - j) := by
    cases n with
    | zero => simp [e0]
    | succ m =>
      rw [if_pos (by omega)]
      unfold sumf
      rw [fsum_range, Finset.sum_range_succ']
      have z : production p E T st0 0 = 0 := by unfold production; rw [if_pos rfl, hst]
      rw [z, zero_mul, add_zero]
      apply Finset.sum_congr (by rfl)
      intro j hj
      have := Finset.mem_range.1 hj
      rw [hd (j + 1) (by omega)]
      congr 2
      omega
  rw [hs]
  simp only [mofInt, Int.cast_natCast]
  norm_num

/-- **C70** The reported yearly land flux is the mean of the uptake over the year's sub-steps. -/
theorem C70_reported (hi : p.idtm ≠ 0) (hst : st0.dfnpp 0 = 0) {y Y : ℕ} (hy : y < Y) :
    biosphereFlux p (yearState p E T st0 Y).dfnpp y = (∑ i ∈ Finset.range p.idtm,
      (production p E T st0 (p.idtm * y + i) - 1 / p.idtm * ∑ j ∈ Finset.range (p.idtm * y + i),
        production p E T st0 j * p.rb (p.idtm * y + i - 1 - j))) / p.idtm := by
  unfold biosphereFlux
  rw [fsum_range]
  simp only [mofInt, Int.cast_natCast]
  congr 1
  apply Finset.sum_congr rfl
  intro i hI
  have hi' := Finset.mem_range.1 hI
  rw [← C70_uptake p E T st0 (p.idtm * y + i) hst, yearState_eq p hi]
  apply fferSeries_congr
  intro j hj
  have : p.idtm * y + i + 1 ≤ Y * p.idtm := by
    have h1 : p.idtm * (y + 1) ≤ p.idtm * Y := Nat.mul_le_mul_left _ hy
    rw [Nat.mul_add, Nat.mul_one] at h1
    rw [Nat.mul_comm Y]
    omega
  exact (subState_stable p E T st0 _ _ this j (by omega)).2

/-- A freshly built or reset model has no production. -/
example (p : Pams ℝ) (stale : State ℝ) : (initState p).dfnpp 0 = 0 ∧ (resetHold p stale).dfnpp 0 = 0 ∧
    (Pams.default 24 351 : Pams ℝ).idtm ≠ 0 := by
  refine ⟨by norm_num [initState], by norm_num [resetHold], by norm_num [Pams.default]⟩

end Verif.Props
