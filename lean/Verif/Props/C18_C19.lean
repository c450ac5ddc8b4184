import Verif.Lemmas.Carbon
import Verif.Props.C24_C25

/-!
# C18, C19: default carbon cycle at rest, and its carbon budget (exact arithmetic)
-/

namespace Verif.Props
open Verif.Py Verif.Model.Carbon

theorem fsum_range (n : ℕ) (f : ℕ → ℝ) :
    fsum ((List.range n).map f) = ∑ j ∈ Finset.range n, f j := by
  rw [fsum_eq_sum]
  induction n with
  | zero => simp
  | succ n ih => rw [List.range_succ, List.map_append, List.sum_append, ih, Finset.sum_range_succ]; simp

/-! ## C18 -/

/-- The pre-industrial carbon state: nothing has happened yet. -/
structure AtRest (p : Pams ℝ) (st : State ℝ) : Prop where
  x : st.xCO2 = p.preindustrial_co2_conc
  y : st.yCO2 = 0
  s : ∀ j, st.sCO2 j = 0
  e : st.emCO2_prev = 0
  d : ∀ j, st.dfnpp j = 0
  ss1 : st.ss1 = 0
  sums : st.sums = 0

theorem atRest_step (p : Pams ℝ) (hp : p.preindustrial_co2_conc ≠ 0) (fnpp : ℝ) (st : State ℝ)
    (h : AtRest p st) (it : ℕ) : AtRest p (subStep p fnpp 0 st it) := by
  have hr := subStep_spec p fnpp 0 st it
  set r := subStep p fnpp 0 st it
  have hd : ∀ j, r.dfnpp j = 0 := by
    intro j
    rw [hr.dfnpp]
    split
    · unfold upd
      split
      · rw [h.x, div_self hp]; simp
      · exact h.d j
    · exact h.d j
  have hf : fferSeries p r.dfnpp it = 0 := by
    unfold fferSeries
    have : sumf p r.dfnpp it = 0 := by
      unfold sumf
      rw [fsum_range]
      exact Finset.sum_eq_zero fun j _ => by rw [hd]; ring
    rw [this, hd]
    have : (0.0 : ℝ) = 0 := by norm_num
    simp [this]
  have he : r.emCO2_prev = 0 := by rw [hr.em, hf]; simp
  have h00 : (0.0 : ℝ) = 0 := by norm_num
  have h1 : r.ss1 = 0 := by rw [hr.ss1, he, h.ss1]; simp
  have h2 : r.sums = 0 := by rw [hr.sums, h.sums, h.e, h.s, h00]; simp
  have hs : ∀ j, r.sCO2 j = 0 := by
    intro j
    rw [hr.sCO2, h1, h2, he, h.y]
    unfold upd
    split
    · simp
    · exact h.s j
  have hy : r.yCO2 = 0 := by
    rw [hr.yCO2]
    unfold partialPressure zCo2
    have : fsum ((List.range (it - 1)).map (fun j => r.sCO2 j * p.rs (it - 1 - j))) = 0 := by
      rw [fsum_range]
      exact Finset.sum_eq_zero fun j _ => by rw [hs]; ring
    rw [this, hs]
    simp only [h00, mul_zero, add_zero, ite_self]
    rw [C25_zero, mul_zero]
  refine ⟨?_, hy, hs, he, hd, h1, h2⟩
  rw [hr.xCO2, hs, hy, h.y]; ring

theorem atRest_year (p : Pams ℝ) (hp : p.preindustrial_co2_conc ≠ 0) (st : State ℝ)
    (h : AtRest p st) (y : ℕ) (fb : Option ℝ) : AtRest p (co2em2conc p st y 0 fb) := by
  have key : ∀ (l : List ℕ) (s0 : State ℝ), AtRest p s0 → AtRest p
      (l.foldl (fun st i => subStep p (fnppFromTemp p (fb.getD 0.0)) 0 st (y * p.idtm + i)) s0) := by
    intro l
    induction l with
    | nil => intro s0 h0; exact h0
    | cons i l ih => intro s0 h0; exact ih _ (atRest_step p hp _ _ h0 _)
  exact key _ _ ⟨h.x, h.y, h.s, h.e, h.d, h.ss1, h.sums⟩

/-- C18: from the reset state, after any number of years with zero emissions and any temperature
history, the concentration is exactly pre-industrial, for every parameter set and every pair of
impulse responses. -/
theorem C18_zero_emissions (p : Pams ℝ) (hp : p.preindustrial_co2_conc ≠ 0)
    (inputs : List (ℝ × Option ℝ)) (hz : ∀ i ∈ inputs, i.1 = 0) (y0 : ℕ) (stale : State ℝ) :
    (runFrom p (resetHold p stale) y0 inputs).xCO2 = p.preindustrial_co2_conc := by
  have h00 : (0.0 : ℝ) = 0 := by norm_num
  have h0 : AtRest p (resetHold p stale) := by
    constructor <;> simp [resetHold, h00]
  suffices ∀ st, AtRest p st → AtRest p (runFrom p st y0 inputs) from (this _ h0).x
  induction inputs generalizing y0 with
  | nil => intro st h; exact h
  | cons i l ih =>
    intro st h
    rw [runFrom, hz i (by simp)]
    exact ih (fun j hj => hz j (by simp [hj])) (y0 + 1) _ (atRest_year p hp st h y0 i.2)

/-- Same, starting from a freshly constructed model. -/
theorem C18_zero_emissions_fresh (p : Pams ℝ) (hp : p.preindustrial_co2_conc ≠ 0)
    (inputs : List (ℝ × Option ℝ)) (hz : ∀ i ∈ inputs, i.1 = 0) :
    (runFrom p (initState p) 0 inputs).xCO2 = p.preindustrial_co2_conc :=
  C18_zero_emissions p hp inputs hz 0 (initState p)

example : (Pams.default 24 351 : Pams ℝ).preindustrial_co2_conc ≠ 0 ∧
    ∀ i ∈ [((0 : ℝ), some (1.5 : ℝ)), (0, none)], i.1 = 0 := by
  refine ⟨by norm_num [Pams.default], ?_⟩
  intro i hi
  fin_cases hi <;> rfl

/-- Non-triviality: with emissions the concentration does move (first sub-step of one step per
year). -/
theorem C18_not_constant (p : Pams ℝ) (hidtm : p.idtm = 1) (E : ℝ) (fb : Option ℝ)
    (hfb : 0 ≤ solubilityTempFeedback p (fb.getD 0.0)) (hml : 0 < mixedLayerTempFeedback p (fb.getD 0.0))
    (hE : 0 < E) :
    p.preindustrial_co2_conc < (co2em2conc p (initState p) 0 E fb).xCO2 := by
  unfold co2em2conc
  rw [hidtm]
  simp only [List.range_one, List.foldl_cons, List.foldl_nil, Nat.zero_mul, Nat.add_zero]
  set s0 : State ℝ := { initState p with
    solFb := solubilityTempFeedback p (fb.getD 0.0), mlFb := mixedLayerTempFeedback p (fb.getD 0.0) }
  have hr := subStep_spec p (fnppFromTemp p (fb.getD 0.0)) E s0 0
  set r := subStep p (fnppFromTemp p (fb.getD 0.0)) E s0 0
  have h00 : (0.0 : ℝ) = 0 := by norm_num
  have hd : r.dfnpp 0 = 0 := by rw [hr.dfnpp]; simp [s0, initState, h00]
  have he : r.emCO2_prev = E / 2.123 := by
    rw [hr.em]; simp [fferSeries, hd, h00, PPM_CO2_TO_PG_C]
  have hs : 0 < r.sCO2 0 := by
    rw [hr.sCO2, hr.sums, hr.ss1, he]
    simp only [upd, if_true, h00, hidtm, OCEAN_AREA, GE_COEFF, mofInt]
    norm_num
    positivity
  have hz : 0 ≤ r.yCO2 := by
    rw [hr.yCO2]
    unfold partialPressure
    have h1 : 0 ≤ zCo2 p r 0 := by
      unfold zCo2
      rw [hr.mlFb]
      have : 0 < s0.mlFb := hml
      simp only [lt_irrefl, if_false, h00, hidtm, OCEAN_AREA, GE_COEFF, PPMKG_TO_UMOL_PER_VOL, mofInt]
      norm_num
      positivity
    have h2 : 0 ≤ pco2Of (zCo2 p r 0) := by
      rw [← C25_zero]; exact C25_strictMono.monotone h1
    rw [hr.solFb]
    exact mul_nonneg hfb h2
  rw [hr.xCO2]
  have : s0.yCO2 = 0 := by simp [s0, initState, h00]
  rw [this]
  norm_num
  linarith

/-! ## C19 -/

/-- Net carbon input rate at sub-step `j` in ppm/yr: emissions of the year minus the biospheric
uptake reported for that sub-step, per PgC/ppm. -/
noncomputable def netInput (p : Pams ℝ) (E : ℕ → ℝ) (dfnpp : ℕ → ℝ) (j : ℕ) : ℝ :=
  (E (j / p.idtm) - fferSeries p dfnpp j) / 2.123

/-- Air-sea exchange rate (1/yr). -/
noncomputable def kx : ℝ := 1 / 9.06

theorem k_eq : (OCEAN_AREA * GE_COEFF : ℝ) = kx := by
  norm_num [OCEAN_AREA, GE_COEFF, kx]

theorem k_eq' (a : ℝ) : a * OCEAN_AREA * GE_COEFF = a * kx := by
  rw [mul_assoc, k_eq]

section
variable (p : Pams ℝ) (E : ℕ → ℝ) (T : ℕ → Option ℝ) (st0 : State ℝ)

/-- Entries already written are not touched by later sub-steps. -/
theorem subState_stable (n m : ℕ) (h : n ≤ m) (j : ℕ) (hj : j < n) :
    (subState p E T st0 m).sCO2 j = (subState p E T st0 n).sCO2 j ∧
    (subState p E T st0 m).dfnpp j = (subState p E T st0 n).dfnpp j := by
  induction m, h using Nat.le_induction with
  | base => exact ⟨rfl, rfl⟩
  | succ m hm ih =>
    rw [← ih.1, ← ih.2, subState]
    have hr := subStep_spec p (fnppFromTemp p ((T (m / p.idtm)).getD 0.0)) (E (m / p.idtm))
      (withFb p (subState p E T st0 m) (T (m / p.idtm))) m
    constructor
    · rw [hr.sCO2, upd, if_neg (by omega)]; rfl
    · rw [hr.dfnpp]
      split
      · rw [upd, if_neg (by omega)]; rfl
      · rfl

/-- The running quantities after `n+1` sub-steps. -/
theorem budget_invariant (hi : p.idtm ≠ 0) (n : ℕ) :
    let st := subState p E T st0 (n + 1)
    st.emCO2_prev = netInput p E st.dfnpp n ∧
    st.ss1 = netInput p E st.dfnpp 0 / (2 * kx) ∧
    st.sums = (∑ j ∈ Finset.range n, netInput p E st.dfnpp j) / kx - ∑ j ∈ Finset.range n, st.sCO2 j ∧
    st.sCO2 n * (1 + kx / p.idtm / 2) = (1 / p.idtm) *
      (kx * (st.sums + st.ss1) + netInput p E st.dfnpp n / 2)
        - (if n = 0 then 0 else (subState p E T st0 n).yCO2) := by
  have hkx : kx ≠ 0 := by norm_num [kx]
  have hkp : 0 < kx := by norm_num [kx]
  have hid : (p.idtm : ℝ) ≠ 0 := by exact_mod_cast hi
  have hidp : 0 < (p.idtm : ℝ) := by
    have : 0 < p.idtm := Nat.pos_of_ne_zero hi
    exact_mod_cast this
  have hden : (1 + 1 / (p.idtm : ℝ) * kx / 2) ≠ 0 := by positivity
  -- common facts about sub-step n
  have common : ∀ n, let st := subState p E T st0 (n + 1)
      st.emCO2_prev = netInput p E st.dfnpp n ∧
      st.sCO2 n * (1 + kx / p.idtm / 2) = (1 / p.idtm) *
      (kx * (st.sums + st.ss1) + (if n = 0 then kx * st.ss1 else st.emCO2_prev / 2))
        - (if n = 0 then 0 else (subState p E T st0 n).yCO2) := by
    intro n
    have hr := subStep_spec p (fnppFromTemp p ((T (n / p.idtm)).getD 0.0)) (E (n / p.idtm))
      (withFb p (subState p E T st0 n) (T (n / p.idtm))) n
    rw [show subStep p (fnppFromTemp p ((T (n / p.idtm)).getD 0.0)) (E (n / p.idtm))
      (withFb p (subState p E T st0 n) (T (n / p.idtm))) n = subState p E T st0 (n + 1) from rfl] at hr
    set st := subState p E T st0 (n + 1)
    refine ⟨hr.em, ?_⟩
    have hs := congrFun hr.sCO2 n
    simp only [upd, if_true, k_eq, mofInt, k_eq', Int.cast_natCast] at hs
    rw [hs]
    have e1 : (1.0 : ℝ) = 1 := by norm_num
    have e2 : (2.0 : ℝ) = 2 := by norm_num
    have e5 : (0.5 : ℝ) = 1 / 2 := by norm_num
    rw [e1, e2, e5]
    by_cases h0 : n = 0
    · simp only [h0, if_true]
      rw [show kx / (p.idtm : ℝ) / 2 = 1 / (p.idtm : ℝ) * kx / 2 by ring]
      field_simp
      ring
    · simp only [h0, if_false]
      rw [show (withFb p (subState p E T st0 n) (T (n / p.idtm))).yCO2 = (subState p E T st0 n).yCO2
        from rfl]
      rw [show kx / (p.idtm : ℝ) / 2 = 1 / (p.idtm : ℝ) * kx / 2 by ring]
      field_simp
      ring
  induction n with
  | zero =>
    intro st
    obtain ⟨h1, h2⟩ := common 0
    have hr := subStep_spec p (fnppFromTemp p ((T (0 / p.idtm)).getD 0.0)) (E (0 / p.idtm))
      (withFb p (subState p E T st0 0) (T (0 / p.idtm))) 0
    have hss : st.ss1 = netInput p E st.dfnpp 0 / (2 * kx) := by
      have := hr.ss1
      rw [if_pos rfl, k_eq] at this
      refine Eq.trans this ?_
      rw [show (subStep p (fnppFromTemp p ((T (0 / p.idtm)).getD 0.0)) (E (0 / p.idtm))
        (withFb p (subState p E T st0 0) (T (0 / p.idtm))) 0).emCO2_prev = st.emCO2_prev from rfl, h1]
      have e5 : (0.5 : ℝ) = 1 / 2 := by norm_num
      rw [e5]; field_simp; rfl
    have hsu : st.sums = 0 := by
      have := hr.sums
      rw [if_pos rfl] at this
      refine Eq.trans this ?_
      norm_num
    refine ⟨h1, hss, ?_, ?_⟩
    · rw [hsu]; simp
    · have := h2
      simp only [if_true] at this
      change st.sCO2 0 * _ = 1 / (p.idtm : ℝ) * (kx * (st.sums + st.ss1) + kx * st.ss1) - 0 at this
      rw [if_pos rfl, this, show netInput p E st.dfnpp 0 = 2 * kx * st.ss1 by rw [hss]; field_simp]
      ring
  | succ n ih =>
    intro st
    obtain ⟨h1, h2⟩ := common (n + 1)
    simp only [Nat.succ_ne_zero, if_false] at h2
    obtain ⟨i1, i2, i3, i4⟩ := ih
    set st' := subState p E T st0 (n + 1)
    have hr := subStep_spec p (fnppFromTemp p ((T ((n + 1) / p.idtm)).getD 0.0)) (E ((n + 1) / p.idtm))
      (withFb p st' (T ((n + 1) / p.idtm))) (n + 1)
    rw [show subStep p (fnppFromTemp p ((T ((n + 1) / p.idtm)).getD 0.0)) (E ((n + 1) / p.idtm))
      (withFb p st' (T ((n + 1) / p.idtm))) (n + 1) = st from rfl] at hr
    have hst := subState_stable p E T st0 (n + 1) (n + 1 + 1) (by omega)
    have hnet : ∀ j, j ≤ n → netInput p E st.dfnpp j = netInput p E st'.dfnpp j := by
      intro j hj
      unfold netInput
      rw [fferSeries_congr p (d' := st'.dfnpp) (fun i hi => (hst i (by omega)).2)]
    have hss : st.ss1 = netInput p E st.dfnpp 0 / (2 * kx) := by
      rw [hr.ss1, if_neg (by omega), hnet 0 (by omega), ← i2]; rfl
    have hsu : st.sums = (∑ j ∈ Finset.range (n + 1), netInput p E st.dfnpp j) / kx
        - ∑ j ∈ Finset.range (n + 1), st.sCO2 j := by
      rw [hr.sums, if_neg (by omega), k_eq]
      have a1 : (withFb p st' (T ((n + 1) / p.idtm))).sums = st'.sums := rfl
      have a2 : (withFb p st' (T ((n + 1) / p.idtm))).emCO2_prev = st'.emCO2_prev := rfl
      have a3 : (withFb p st' (T ((n + 1) / p.idtm))).sCO2 (n + 1 - 1) = st'.sCO2 n := rfl
      rw [a1, a2, a3, i1, i3]
      rw [Finset.sum_congr rfl (fun j hj => hnet j (by have := Finset.mem_range.1 hj; omega)),
        Finset.sum_congr rfl (g := st'.sCO2) (s₁ := Finset.range (n + 1)) (fun j hj => (hst j (by
          have := Finset.mem_range.1 hj; omega)).1),
        Finset.sum_range_succ, Finset.sum_range_succ]
      field_simp
      ring
    refine ⟨h1, hss, hsu, ?_⟩
    simp only [Nat.succ_ne_zero, if_false]
    rw [h2, h1]

/-- C19 at every sub-step `n` (counting from 0): atmospheric excess plus cumulative air-sea uptake
equals cumulative net input, plus an explicit end-point term of the trapezoidal rule. All in ppm. -/
theorem C19_budget_substep (hi : p.idtm ≠ 0) (hy0 : st0.yCO2 = 0) (n : ℕ) :
    let st := subState p E T st0 (n + 1)
    (st.xCO2 - p.preindustrial_co2_conc) + (kx / p.idtm) * ∑ j ∈ Finset.range (n + 1), st.sCO2 j =
      (1 / p.idtm) * ∑ j ∈ Finset.range (n + 1), netInput p E st.dfnpp j
      + ((netInput p E st.dfnpp 0 - netInput p E st.dfnpp n) / (2 * p.idtm)
         + kx / p.idtm * st.sCO2 n / 2
         + (st.yCO2 - (subState p E T st0 n).yCO2) / 2) := by
  intro st
  have hid : (p.idtm : ℝ) ≠ 0 := by exact_mod_cast hi
  have hkx : kx ≠ 0 := by norm_num [kx]
  obtain ⟨h1, h2, h3, h4⟩ := budget_invariant p E T st0 hi n
  have hr := subStep_spec p (fnppFromTemp p ((T (n / p.idtm)).getD 0.0)) (E (n / p.idtm))
      (withFb p (subState p E T st0 n) (T (n / p.idtm))) n
  have hx := hr.xCO2
  have hx' : st.xCO2 = st.sCO2 n + 0.5 * st.yCO2 + 0.5 * (subState p E T st0 n).yCO2
      + p.preindustrial_co2_conc := hx
  have hy : (if n = 0 then (0 : ℝ) else (subState p E T st0 n).yCO2) = (subState p E T st0 n).yCO2 := by
    split
    · next h => subst h; exact hy0.symm
    · rfl
  rw [hy] at h4
  change st.sCO2 n * _ = _ at h4
  change st.sums = _ at h3
  change st.ss1 = _ at h2
  rw [h3, h2] at h4
  rw [hx', Finset.sum_range_succ, Finset.sum_range_succ]
  set S := ∑ j ∈ Finset.range n, st.sCO2 j
  set N := ∑ j ∈ Finset.range n, netInput p E st.dfnpp j
  have h4' : st.sCO2 n * (1 + kx / p.idtm / 2) + (subState p E T st0 n).yCO2 =
      (1 / p.idtm) * (N - kx * S + netInput p E st.dfnpp 0 / 2 + netInput p E st.dfnpp n / 2) := by
    rw [h4]
    field_simp
    ring
  have e5 : (0.5 : ℝ) = 1 / 2 := by norm_num
  rw [e5]
  have expand : (1 / (p.idtm : ℝ)) * (N - kx * S + netInput p E st.dfnpp 0 / 2 + netInput p E st.dfnpp n / 2)
      = (1 / p.idtm) * N - kx / p.idtm * S + netInput p E st.dfnpp 0 / (2 * p.idtm)
        + netInput p E st.dfnpp n / (2 * p.idtm) := by
    field_simp
  rw [expand] at h4'
  have e6 : (netInput p E st.dfnpp 0 - netInput p E st.dfnpp n) / (2 * (p.idtm : ℝ)) =
    netInput p E st.dfnpp 0 / (2 * p.idtm) - netInput p E st.dfnpp n / (2 * p.idtm) := by ring
  rw [e6]
  have e7 : 1 / (p.idtm : ℝ) * (N + netInput p E st.dfnpp n) = 1 / p.idtm * N
    + 2 * (netInput p E st.dfnpp n / (2 * p.idtm)) := by field_simp
  rw [e7]
  have e8 : kx / (p.idtm : ℝ) * (S + st.sCO2 n) = kx / p.idtm * S + kx / p.idtm * st.sCO2 n := by ring
  rw [e8]
  linarith

/-- Reindexing a sum over sub-steps as a sum over years. -/
theorem sum_years (f : ℕ → ℝ) (Y m : ℕ) :
    ∑ y ∈ Finset.range Y, ∑ i ∈ Finset.range m, f (m * y + i) = ∑ j ∈ Finset.range (Y * m), f j := by
  induction Y with
  | zero => simp
  | succ Y ih =>
    rw [Finset.sum_range_succ, ih, Nat.succ_mul, Finset.sum_range_add]
    congr 1
    apply Finset.sum_congr rfl
    intro i _
    rw [Nat.mul_comm]

/-- C19 in terms of the reported yearly series (PgC): after `Y ≥ 1` years of an emission run,
2.123·(CO2 − pre-industrial) + cumulative ocean flux + cumulative biosphere flux = cumulative
emissions, up to 2.123 times the same end-point term. -/
theorem C19_budget_reported (hi : p.idtm ≠ 0) (Y : ℕ) (hY : 0 < Y) :
    let st := yearState p E T (initState p) Y
    let n := Y * p.idtm - 1
    2.123 * (st.xCO2 - p.preindustrial_co2_conc)
      + ∑ y ∈ Finset.range Y, oceanFlux p st y + ∑ y ∈ Finset.range Y, biosphereFlux p st.dfnpp y
      = ∑ y ∈ Finset.range Y, E y
      + 2.123 * ((netInput p E st.dfnpp 0 - netInput p E st.dfnpp n) / (2 * p.idtm)
         + kx / p.idtm * st.sCO2 n / 2
         + (st.yCO2 - (subState p E T (initState p) n).yCO2) / 2) := by
  intro st n
  have hid : (p.idtm : ℝ) ≠ 0 := by exact_mod_cast hi
  have hn : n + 1 = Y * p.idtm := by
    have : 0 < Y * p.idtm := Nat.mul_pos hY (Nat.pos_of_ne_zero hi)
    omega
  have hst : st = subState p E T (initState p) (n + 1) := by
    rw [hn]; exact yearState_eq p hi E T (initState p) Y
  have hb := C19_budget_substep p E T (initState p) hi (by norm_num [initState]) n
  simp only at hb
  rw [← hst] at hb
  have hoc : ∑ y ∈ Finset.range Y, oceanFlux p st y =
      2.123 * (kx / p.idtm) * ∑ j ∈ Finset.range (n + 1), st.sCO2 j := by
    rw [hn, ← sum_years, Finset.mul_sum]
    apply Finset.sum_congr rfl
    intro y _
    unfold oceanFlux
    rw [fsum_range]
    have : (GE_COEFF * OCEAN_AREA : ℝ) = kx := by rw [mul_comm]; exact k_eq
    rw [mul_assoc _ GE_COEFF OCEAN_AREA, this]
    simp only [PPM_CO2_TO_PG_C, mofInt, Int.cast_natCast]
    ring
  have hbio : ∑ y ∈ Finset.range Y, biosphereFlux p st.dfnpp y =
      (1 / p.idtm) * ∑ j ∈ Finset.range (n + 1), fferSeries p st.dfnpp j := by
    rw [hn, ← sum_years, Finset.mul_sum]
    apply Finset.sum_congr rfl
    intro y _
    unfold biosphereFlux
    rw [fsum_range]
    simp only [mofInt, Int.cast_natCast]
    ring
  have hem : ∑ y ∈ Finset.range Y, E y = (1 / p.idtm) * ∑ j ∈ Finset.range (n + 1), E (j / p.idtm) := by
    rw [hn, ← sum_years, Finset.mul_sum]
    apply Finset.sum_congr rfl
    intro y _
    have : ∀ i ∈ Finset.range p.idtm, E ((p.idtm * y + i) / p.idtm) = E y := by
      intro i hi'
      rw [Nat.mul_add_div (Nat.pos_of_ne_zero hi), Nat.div_eq_of_lt (Finset.mem_range.1 hi'), Nat.add_zero]
    rw [Finset.sum_congr rfl this, Finset.sum_const, Finset.card_range, nsmul_eq_mul]
    field_simp
  have hnet : ∑ j ∈ Finset.range (n + 1), netInput p E st.dfnpp j =
      (∑ j ∈ Finset.range (n + 1), E (j / p.idtm) - ∑ j ∈ Finset.range (n + 1), fferSeries p st.dfnpp j) / 2.123 := by
    rw [← Finset.sum_sub_distrib, div_eq_mul_inv, Finset.sum_mul]
    rfl
  rw [hoc, hbio, hem]
  rw [hnet] at hb
  have h2 : (2.123 : ℝ) ≠ 0 := by norm_num
  have key : 2.123 * (1 / (p.idtm : ℝ) * ((∑ j ∈ Finset.range (n + 1), E (j / p.idtm)
      - ∑ j ∈ Finset.range (n + 1), fferSeries p st.dfnpp j) / 2.123)) =
      1 / p.idtm * ∑ j ∈ Finset.range (n + 1), E (j / p.idtm)
      - 1 / p.idtm * ∑ j ∈ Finset.range (n + 1), fferSeries p st.dfnpp j := by
    field_simp
  linear_combination 2.123 * hb + key

/-- Non-vacuity: default parameters, 24 sub-steps, 3 years. -/
example : (Pams.default 24 3 : Pams ℝ).idtm ≠ 0 ∧ 0 < 3 := ⟨by simp [Pams.default], by norm_num⟩

end
end Verif.Props
