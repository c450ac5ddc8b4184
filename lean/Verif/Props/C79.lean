import Verif.Props.C18_C19
import Verif.Props.C20_C21_C28
import Mathlib.Topology.Order.IntermediateValue

/-!
# C79: emissions that produced a concentration path are found again
-/

namespace Verif.Props
open Verif.Py Verif.Model Verif.Model.Carbon Verif.Model.BackCalc

/-- With one sub-step per year, the concentration at the end of a year as a function of the year's
emission: an affine air-sea term plus the partial pressure of the carbon it dissolves. -/
theorem year_response (p : Pams ℝ) (hi : p.idtm = 1) (st : State ℝ) (y : ℕ) (fb : Option ℝ)
    (hm : 0 < mixedLayerTempFeedback p (fb.getD 0.0)) :
    ∃ a g A B D : ℝ, 0 < g ∧ 0 < B ∧ ∀ e, (co2em2conc p st y e fb).xCO2 =
      (a + g * e) + 0.5 * (solubilityTempFeedback p (fb.getD 0.0) * pco2Of (A + B * (a + g * e))) + D := by
  set s0 : State ℝ := { st with
    solFb := solubilityTempFeedback p (fb.getD 0.0), mlFb := mixedLayerTempFeedback p (fb.getD 0.0) }
  set fn := fnppFromTemp p (fb.getD 0.0)
  have hx : ∀ e, co2em2conc p st y e fb = subStep p fn e s0 y := by
    intro e
    simp only [co2em2conc, hi, List.range_one, List.foldl_cons, List.foldl_nil, Nat.mul_one, Nat.add_zero]
    rfl
  set d : ℕ → ℝ := if 0 < y then upd s0.dfnpp y (fn * p.beta_f * MathFn.log (s0.xCO2 / p.preindustrial_co2_conc))
    else s0.dfnpp
  set w := fferSeries p d y
  have e5 : (0.5 : ℝ) = 1 / 2 := by norm_num
  have e1 : (1.0 : ℝ) = 1 := by norm_num
  have e0 : (0.0 : ℝ) = 0 := by norm_num
  have e2 : (2.0 : ℝ) = 2 := by norm_num
  have hk : (0 : ℝ) < kx := by norm_num [kx]
  set c1 : ℝ := kx / (1 + kx / 2)
  have hc : 0 < c1 := by positivity
  have hs : ∀ e, (subStep p fn e s0 y).sCO2 y = c1 * (if y = 0 then (e - w) / 2.123 / kx else
      s0.sums + s0.emCO2_prev / kx - s0.sCO2 (y - 1) + s0.ss1 + ((e - w) / 2.123 / (2 * kx) - s0.yCO2 / kx)) := by
    intro e
    have r := subStep_spec p fn e s0 y
    rw [r.sCO2, r.sums, r.ss1, r.em, show (subStep p fn e s0 y).dfnpp = d from r.dfnpp]
    simp only [upd, if_true, hi, mofInt, k_eq', k_eq, e1, e2, e5, PPM_CO2_TO_PG_C]
    by_cases h : y = 0
    · have hw : fferSeries p d 0 = w := by rw [← h]
      simp only [h, if_true, Nat.cast_one, Int.cast_one, div_one, one_mul, e0, hw]
      simp only [c1]
      ring
    · simp only [h, if_false, Nat.cast_one, Int.cast_one, div_one, one_mul]
      simp only [c1]
      ring
  have hso : ∀ e j, j ≠ y → (subStep p fn e s0 y).sCO2 j = s0.sCO2 j := by
    intro e j hj
    rw [(subStep_spec p fn e s0 y).sCO2]
    simp [upd, hj]
  set sz : ℝ := if 0 < y then fsum ((List.range (y - 1)).map (fun j => s0.sCO2 j * p.rs (y - 1 - j))) else 0.0
  set C : ℝ := PPMKG_TO_UMOL_PER_VOL * GE_COEFF * (1.0 / ofInt p.idtm) / s0.mlFb
  have hC : 0 < C := by
    have : 0 < s0.mlFb := hm
    simp only [C, hi, OCEAN_AREA, GE_COEFF, PPMKG_TO_UMOL_PER_VOL, mofInt]
    norm_num
    positivity
  have hz : ∀ e, zCo2 p (subStep p fn e s0 y) y = C * sz + C * 0.5 * (subStep p fn e s0 y).sCO2 y := by
    intro e
    unfold zCo2
    rw [(subStep_spec p fn e s0 y).mlFb]
    have : (if 0 < y then fsum ((List.range (y - 1)).map (fun j => (subStep p fn e s0 y).sCO2 j * p.rs (y - 1 - j)))
        else 0.0) = sz := by
      simp only [sz]
      split
      · apply fsum_map_congr
        intro j hj
        rw [hso e j (by omega)]
      · rfl
    simp only [this]
    change C * (sz + 0.5 * _) = _
    rw [mul_add, mul_assoc]
  have hX : ∀ e, (co2em2conc p st y e fb).xCO2 = (subStep p fn e s0 y).sCO2 y
      + 0.5 * (solubilityTempFeedback p (fb.getD 0.0) * pco2Of (C * sz + C * 0.5 * (subStep p fn e s0 y).sCO2 y))
      + (0.5 * s0.yCO2 + p.preindustrial_co2_conc) := by
    intro e
    have r := subStep_spec p fn e s0 y
    rw [hx e, r.xCO2, r.yCO2, partialPressure, hz e, r.solFb]
    ring
  have hg : ∃ a g : ℝ, 0 < g ∧ ∀ e, (subStep p fn e s0 y).sCO2 y = a + g * e := by
    by_cases h : y = 0
    · refine ⟨c1 * (-w / 2.123 / kx), c1 / 2.123 / kx, by positivity, fun e => ?_⟩
      rw [hs e, if_pos h]; ring
    · refine ⟨c1 * (s0.sums + s0.emCO2_prev / kx - s0.sCO2 (y - 1) + s0.ss1 - w / 2.123 / (2 * kx) - s0.yCO2 / kx),
        c1 / 2.123 / (2 * kx), by positivity, fun e => ?_⟩
      rw [hs e, if_neg h]; ring
  obtain ⟨a, g, g0, ha⟩ := hg
  refine ⟨a, g, C * sz, C * 0.5, 0.5 * s0.yCO2 + p.preindustrial_co2_conc, g0, by positivity, fun e => ?_⟩
  rw [hX e, ha e]

/-- A parameter set whose feedback factors are positive at every temperature. -/
structure Responsive (p : Pams ℝ) : Prop where
  depth : 0 < p.ml_depth_min
  limit : -1 < p.solubility_limit

theorem _root_.Verif.Props.Responsive.factors {p : Pams ℝ} (h : Responsive p) (t : ℝ) :
    0 < solubilityTempFeedback p t ∧ 0 < mixedLayerTempFeedback p t := by
  refine ⟨?_, lt_of_lt_of_le h.depth (C24_mixed_min p t)⟩
  rw [C24_solubility_eq p t]
  have := h.limit
  exact lt_min (Real.exp_pos _) (by linarith)

/-- With one sub-step per year, a higher emission in a year means a higher concentration at the end of
that year, whatever happened before, and the concentration depends continuously on the emission. -/
theorem C79_more_emission (p : Pams ℝ) (hi : p.idtm = 1) (hp : Responsive p) (st : State ℝ) (y : ℕ)
    (fb : Option ℝ) :
    StrictMono (fun e => (co2em2conc p st y e fb).xCO2) ∧ Continuous (fun e => (co2em2conc p st y e fb).xCO2) := by
  obtain ⟨hsol, hml⟩ := hp.factors (fb.getD 0.0)
  obtain ⟨a, g, A, B, D, g0, B0, h⟩ := year_response p hi st y fb hml
  have hf : (fun e => (co2em2conc p st y e fb).xCO2) = fun e =>
      (a + g * e) + 0.5 * (solubilityTempFeedback p (fb.getD 0.0) * pco2Of (A + B * (a + g * e))) + D :=
    funext h
  rw [hf]
  constructor
  · intro e e' hlt
    have h1 : a + g * e < a + g * e' := by nlinarith
    have h2 : A + B * (a + g * e) < A + B * (a + g * e') := by nlinarith
    have h3 := mul_lt_mul_of_pos_left (C25_strictMono h2) hsol
    simp only
    norm_num at h3 ⊢
    linarith
  · have hc : Continuous (pco2Of : ℝ → ℝ) :=
      continuous_iff_continuousAt.2 (fun z => (C25_hasDerivAt z).continuousAt)
    fun_prop

/-- The emission returned for a year is what the search of that year finds, started from the state the
emissions returned for the earlier years lead to. -/
theorem backLoop_guess (p : Pams ℝ) (width : ℕ → ℝ) (fb : ℕ → Option ℝ) (rtol : ℝ) (maxit : ℕ) (y : ℕ) (prev : ℝ)
    (concs : List ℝ) (st : State ℝ) :
    let r := backLoop (defaultModel p) width fb rtol maxit y prev concs st
    ∀ i (h : i < concs.length), r.1[i]? = some (guessEmissions (defaultModel p) (forward p fb st y (r.1.take i))
      concs[i] (initialMaxMin concs[i] (if i = 0 then prev else concs.getD (i - 1) prev) (width (y + i)))
      (y + i) (fb (y + i)) rtol maxit).guess := by
  induction concs generalizing y prev st with
  | nil => intro r i h; simp at h
  | cons c cs ih =>
    intro r i hi
    obtain ⟨g1, -, -⟩ := guess_state (defaultModel p) (defaultModel_replayable p) st c
      (initialMaxMin c prev (width y)) y (fb y) rtol maxit
    set g := guessEmissions (defaultModel p) st c (initialMaxMin c prev (width y)) y (fb y) rtol maxit
    have l3 := ih (y + 1) c g.state
    set rest := backLoop (defaultModel p) width fb rtol maxit (y + 1) c cs g.state
    have hr : r = (g.guess :: rest.1, rest.2) := rfl
    have g1' : g.state = co2em2conc p st y g.guess (fb y) := g1
    rw [hr]
    cases i with
    | zero =>
      simp only [List.getElem_cons_zero, List.getElem?_cons_zero, List.take_zero, forward, if_true, Nat.add_zero]
      rfl
    | succ i =>
      simp only [List.getElem_cons_succ, List.getElem?_cons_succ, List.take_succ_cons, forward, Nat.succ_ne_zero, if_false]
      rw [← g1', l3 i (by simpa using hi), show y + (i + 1) = y + 1 + i by omega]
      rw [show (c :: cs).getD (i + 1 - 1) prev = if i = 0 then c else cs.getD (i - 1) c by
        cases i with
        | zero => simp
        | succ i =>
          have h1 : i < cs.length := by simp at hi; omega
          simp [List.getD_eq_getElem?_getD, List.getElem?_eq_getElem h1]]

theorem forward_snoc (p : Pams ℝ) (fb : ℕ → Option ℝ) (st : State ℝ) (y : ℕ) (es : List ℝ) (e : ℝ) :
    forward p fb st y (es ++ [e]) = co2em2conc p (forward p fb st y es) (y + es.length) e (fb (y + es.length)) := by
  induction es generalizing st y with
  | nil => rfl
  | cons a es ih =>
    simp only [List.cons_append, forward, ih, List.length_cons]
    rw [show y + (es.length + 1) = y + 1 + es.length by omega]

/-- C79 with one sub-step per year (missing: other numbers of sub-steps): back-calculate emissions for a
path of positive concentrations. In every year whose initial search interval reaches from an emission
that gives too little to one that gives too much, there is an emission that gives exactly the target,
only one, and either the returned emissions give the target to one part in ten million or the returned
emission is that one up to the width of the interval divided by `2^101`. -/
theorem C79_recovered_partial (p : Pams ℝ) (hi : p.idtm = 1) (hp : Responsive p) (st : State ℝ)
    (concs : List ℝ) (hc : ∀ c ∈ concs, 0 < c) (dtemp : ℕ → ℝ) :
    let r := backCalculate p st concs dtemp
    let fb := fun i => some (dtemp i)
    ∀ i (h : i < concs.length) (h' : i < r.1.length),
      let s := forward p fb st 0 (r.1.take i)
      let mm := initialMaxMin concs[i] (if i = 0 then p.preindustrial_co2_conc else concs[i - 1])
          (fferSeries p (dfnppOfConc p (fun y => concs.getD y 0.0) dtemp) (i * p.idtm))
      (co2em2conc p s i mm.2 (fb i)).xCO2 ≤ concs[i] → concs[i] ≤ (co2em2conc p s i mm.1 (fb i)).xCO2 →
      ∃ e, (∀ e', (co2em2conc p s i e' (fb i)).xCO2 = concs[i] ↔ e' = e) ∧
        (|concs[i] - (forward p fb st 0 (r.1.take (i + 1))).xCO2| ≤ 1e-7 * concs[i] ∨
          |r.1[i] - e| ≤ (mm.1 - mm.2) / 2 ^ 101) := by
  intro r fb i h h' s mm hlo hhi
  obtain ⟨hmono, hcont⟩ := C79_more_emission p hi hp s i (fb i)
  have hle : mm.2 ≤ mm.1 := by
    by_contra hcon
    have := hmono (not_le.1 hcon)
    simp only at this
    linarith
  obtain ⟨e, ⟨he1, he2⟩, he⟩ := intermediate_value_Icc hle hcont.continuousOn ⟨hlo, hhi⟩
  simp only at he
  refine ⟨e, fun e' => ⟨fun h1 => hmono.injective (h1.trans he.symm), fun h1 => by rw [h1, he]⟩, ?_⟩
  have hpos : 0 < concs[i] := hc _ (List.getElem_mem h)
  have hg := backLoop_guess p (fun i => fferSeries p (dfnppOfConc p (fun y => concs.getD y 0.0) dtemp) (i * p.idtm))
    fb 1e-7 100 0 p.preindustrial_co2_conc concs st i h
  simp only [Nat.zero_add] at hg
  rw [show concs.getD (i - 1) p.preindustrial_co2_conc = concs[i - 1] by
    simp [List.getD_eq_getElem?_getD, List.getElem?_eq_getElem (show i - 1 < concs.length by omega)]] at hg
  have hri : r.1[i]? = some r.1[i] := List.getElem?_eq_getElem h'
  have hgi : r.1[i] = (guessEmissions (defaultModel p) s concs[i] mm i (fb i) 1e-7 100).guess :=
    Option.some_inj.1 (hri.symm.trans hg)
  have hst : (forward p fb st 0 (r.1.take (i + 1)))
      = (guessEmissions (defaultModel p) s concs[i] mm i (fb i) 1e-7 100).state := by
    obtain ⟨g1, -, -⟩ := guess_state (defaultModel p) (defaultModel_replayable p) s concs[i] mm i (fb i) 1e-7 100
    rw [g1, ← List.take_append_getElem h', forward_snoc]
    simp only [List.length_take, Nat.zero_add, Nat.min_eq_left h'.le, hgi]
    rfl
  have := C21_converges (defaultModel p) (defaultModel_replayable p) s i (fb i) concs[i] 1e-7 hpos (by norm_num)
    100 mm.1 mm.2 e hmono.monotone he he1 he2
  rw [hst, hgi]
  exact this

/-! ## The interval need not contain the emission -/

/-- One sub-step per year, otherwise the default parameters. -/
noncomputable def yearlySteps : Pams ℝ := Pams.default 1 1

theorem yearly_responsive : Responsive yearlySteps := by
  constructor <;> norm_num [yearlySteps, Pams.default]

/-- Dissolved carbon per unit of the first flux, for one sub-step per year and the default depth. -/
noncomputable def toSea : ℝ := 1.722e17 / (3.62e14 * 9.06) / 75 / 2

/-- The concentration after one year of emission `e` from the pre-industrial state. -/
theorem yearly_first (e : ℝ) : (co2em2conc yearlySteps (initState yearlySteps) 0 e (some 0)).xCO2
    = e / (2.123 * (1 + kx / 2)) + 1 / 2 * pco2Of (toSea * (e / (2.123 * (1 + kx / 2)))) + 278 := by
  have e0 : (0.0 : ℝ) = 0 := by norm_num
  have e1 : (1.0 : ℝ) = 1 := by norm_num
  have e2 : (2.0 : ℝ) = 2 := by norm_num
  have e5 : (0.5 : ℝ) = 1 / 2 := by norm_num
  have h1 : solubilityTempFeedback yearlySteps 0 = 1 :=
    C24_solubility_at_zero yearlySteps (by norm_num [yearlySteps, Pams.default])
  have h2 : mixedLayerTempFeedback yearlySteps 0 = 75 := by
    rw [C24_mixed_at_zero yearlySteps (by norm_num [yearlySteps, Pams.default]) (by norm_num [yearlySteps, Pams.default])]
    norm_num [yearlySteps, Pams.default]
  set s0 : State ℝ := { initState yearlySteps with solFb := 1, mlFb := 75 } with hs0
  have hx : co2em2conc yearlySteps (initState yearlySteps) 0 e (some 0) =
      subStep yearlySteps (fnppFromTemp yearlySteps 0) e s0 0 := by
    simp only [co2em2conc, Option.getD_some, h1, h2]
    rfl
  rw [hx]
  have r := subStep_spec yearlySteps (fnppFromTemp yearlySteps 0) e s0 0
  generalize subStep yearlySteps (fnppFromTemp yearlySteps 0) e s0 0 = q at r
  have hd : q.dfnpp 0 = 0 := by rw [r.dfnpp]; simp [hs0, initState, e0]
  have hem : q.emCO2_prev = e / 2.123 := by
    rw [r.em]; simp [fferSeries, hd, e0, PPM_CO2_TO_PG_C]
  have hk : (0 : ℝ) < kx := by norm_num [kx]
  have hs : q.sCO2 0 = e / (2.123 * (1 + kx / 2)) := by
    rw [r.sCO2, r.sums, r.ss1, hem]
    simp only [upd, if_true, e0, e1, e2, e5, k_eq, k_eq', mofInt, show yearlySteps.idtm = 1 from rfl, Nat.cast_one,
      Int.cast_one, div_one, one_mul]
    have : (0 : ℝ) < 1 + kx / 2 := by positivity
    field_simp
    ring
  have hy0 : s0.yCO2 = 0 := e0
  have hz : zCo2 yearlySteps q 0 = toSea * (e / (2.123 * (1 + kx / 2))) := by
    unfold zCo2
    rw [r.mlFb, hs]
    generalize e / (2.123 * (1 + kx / 2)) = u
    simp only [lt_irrefl, if_false, e0, e1, e5, show yearlySteps.idtm = 1 from rfl, Nat.cast_one, mofInt, Int.cast_one,
      div_one, hs0, PPMKG_TO_UMOL_PER_VOL, GE_COEFF, OCEAN_AREA, toSea]
    ring
  rw [r.xCO2, r.yCO2, partialPressure, hz, hs, r.solFb, hy0, e5]
  simp only [hs0, yearlySteps, Pams.default]
  norm_num

/-- C79 fails: with one sub-step per year and default parameters, emit 18 PgC in the first year and ask which
emission explains the concentration that results. The search only considers emissions above 18.5 PgC, and
what it returns gives a concentration more than 0.2 ppm too high. -/
theorem C79_recovered_false :
    let c := (co2em2conc yearlySteps (initState yearlySteps) 0 18 (some 0)).xCO2
    ∃ e, (backCalculate yearlySteps (initState yearlySteps) [c] (fun _ => 0)).1 = [e] ∧ 18.5 < e ∧
      c + 0.2 < (co2em2conc yearlySteps (initState yearlySteps) 0 e (some 0)).xCO2 := by
  intro c
  set u : ℝ := 18 / (2.123 * (1 + kx / 2)) with hu
  have hc : c = u + 1 / 2 * pco2Of (toSea * u) + 278 := yearly_first 18
  have u1 : 8.035 < u := by rw [hu]; norm_num [kx]
  have u2 : u < 8.036 := by rw [hu]; norm_num [kx]
  have k1 : (0.35 : ℝ) < toSea := by norm_num [toSea]
  have k2 : toSea < 0.3501 := by norm_num [toSea]
  have p1 : (3.69 : ℝ) < pco2Of (toSea * u) := by
    refine lt_of_lt_of_le ?_ (C25_strictMono.monotone (show (2.812 : ℝ) ≤ toSea * u by nlinarith))
    rw [pco2Of, if_neg (by norm_num [zCo2Max])]
    norm_num [pco2Poly]
  have p2 : pco2Of (toSea * u) < 3.7 := by
    refine lt_of_le_of_lt (C25_strictMono.monotone (show toSea * u ≤ (2.814 : ℝ) by nlinarith)) ?_
    rw [pco2Of, if_neg (by norm_num [zCo2Max])]
    norm_num [pco2Poly]
  have c1 : 287.88 < c := by rw [hc]; norm_num at *; linarith
  have c2 : c < 287.89 := by rw [hc]; norm_num at *; linarith
  set w := fferSeries yearlySteps (dfnppOfConc yearlySteps (fun y => [c].getD y 0.0) (fun _ => 0)) (0 * yearlySteps.idtm)
    with hw
  have hw' : w = 17.22 * Real.log (c / 278) := by
    rw [hw]
    simp only [Nat.zero_mul, fferSeries, lt_irrefl, if_false, dfnppOfConc, Nat.zero_div, C24_npp_at_zero, mlog]
    simp only [yearlySteps, Pams.default]
    norm_num
    ring
  have cpos : 0 < c / 278 := by linarith [show 0 < c by norm_num at *; linarith, div_pos (show 0 < c by norm_num at *; linarith) (by norm_num : (0:ℝ) < 278)]
  have w1 : w ≤ 0.613 := by
    have := Real.log_le_sub_one_of_pos cpos
    rw [hw']
    norm_num at *
    linarith
  have w2 : 0.5 ≤ w := by
    have := Real.one_sub_inv_le_log_of_pos cpos
    have h3 : (c / 278)⁻¹ ≤ 0.966 := by
      rw [inv_le_comm₀ cpos (by norm_num)]
      norm_num at *
      linarith
    rw [hw']
    norm_num at *
    linarith
  have hmm : initialMaxMin c yearlySteps.preindustrial_co2_conc w = ((c - 278) * 2.123 + 8 * w, (c - 278) * 2.123 - 4 * w) := by
    have e8 : (8.0 : ℝ) = 8 := by norm_num
    have e4 : (4.0 : ℝ) = 4 := by norm_num
    have e278 : yearlySteps.preindustrial_co2_conc = 278 := by norm_num [yearlySteps, Pams.default]
    have w0 : 0 < w := by norm_num at *; linarith
    simp only [initialMaxMin, PPM_CO2_TO_PG_C, e8, e4, e278]
    rw [if_pos (by linarith : (c - 278) * 2.123 - 4 * w < (c - 278) * 2.123 + 8 * w),
      if_neg (by linarith : ¬ (c - 278) * 2.123 + 8 * w < (c - 278) * 2.123 - 4 * w),
      if_neg (by norm_num at *; linarith)]
  set g := guessEmissions (defaultModel yearlySteps) (initState yearlySteps) c
    (initialMaxMin c yearlySteps.preindustrial_co2_conc w) 0 (some 0) 1e-7 100 with hg
  have hres : (backCalculate yearlySteps (initState yearlySteps) [c] (fun _ => 0)).1 = [g.guess] := rfl
  obtain ⟨-, -, -, t4, t5, -⟩ := C21_search_trace (defaultModel yearlySteps) (initState yearlySteps) c
    ((c - 278) * 2.123 + 8 * w) ((c - 278) * 2.123 - 4 * w) (by norm_num at *; linarith) 0 (some 0) 1e-7 100
  rw [← hmm, ← hg] at t4 t5
  have ge : 18.5 < g.guess := by
    have := (t5 g.guess (List.mem_of_getLast? t4)).1
    norm_num at *
    linarith
  refine ⟨g.guess, hres, ge, ?_⟩
  rw [yearly_first, hc]
  have kk : 2.123 * (1 + kx / 2) < 2.2405 := by norm_num [kx]
  have k0 : 0 < 2.123 * (1 + kx / 2) := by norm_num [kx]
  generalize 2.123 * (1 + kx / 2) = K at hu kk k0
  have step : u + 0.22 ≤ g.guess / K := by
    rw [hu, le_div_iff₀ k0, add_mul, div_mul_cancel₀ _ k0.ne']
    norm_num at *
    linarith
  have hP := C25_strictMono.monotone (show toSea * u ≤ toSea * (g.guess / K) by
    apply mul_le_mul_of_nonneg_left _ (le_trans (by norm_num) k1.le)
    exact le_trans (by norm_num) step)
  norm_num at *
  linarith

/-- The width used for a one-year path without temperature change. -/
theorem yearly_width (c : ℝ) : fferSeries yearlySteps (dfnppOfConc yearlySteps (fun y => [c].getD y 0.0) (fun _ => 0))
    (0 * yearlySteps.idtm) = 17.22 * Real.log (c / 278) := by
  simp only [Nat.zero_mul, fferSeries, lt_irrefl, if_false, dfnppOfConc, Nat.zero_div, C24_npp_at_zero, mlog]
  simp only [yearlySteps, Pams.default]
  norm_num
  ring

/-- Smaller emissions are found: the concentration 2 PgC lead to lies between those of the two ends of the
search interval, so `C79_recovered_partial` applies to it. -/
example : let c := (co2em2conc yearlySteps (initState yearlySteps) 0 2 (some 0)).xCO2
    let mm := initialMaxMin c yearlySteps.preindustrial_co2_conc (fferSeries yearlySteps
      (dfnppOfConc yearlySteps (fun y => [c].getD y 0.0) (fun _ => 0)) (0 * yearlySteps.idtm))
    yearlySteps.idtm = 1 ∧ Responsive yearlySteps ∧ (∀ x ∈ [c], 0 < x) ∧
      (co2em2conc yearlySteps (initState yearlySteps) 0 mm.2 (some 0)).xCO2 ≤ c ∧
      c ≤ (co2em2conc yearlySteps (initState yearlySteps) 0 mm.1 (some 0)).xCO2 := by
  intro c mm
  set u : ℝ := 2 / (2.123 * (1 + kx / 2)) with hu
  have hc : c = u + 1 / 2 * pco2Of (toSea * u) + 278 := yearly_first 2
  have u1 : 0.89 < u := by rw [hu]; norm_num [kx]
  have u2 : u < 0.9 := by rw [hu]; norm_num [kx]
  have k1 : (0.35 : ℝ) < toSea := by norm_num [toSea]
  have k2 : toSea < 0.3501 := by norm_num [toSea]
  have p1 : (0.3 : ℝ) < pco2Of (toSea * u) := by
    refine lt_of_lt_of_le ?_ (C25_strictMono.monotone (show (0.3 : ℝ) ≤ toSea * u by nlinarith))
    rw [pco2Of, if_neg (by norm_num [zCo2Max])]
    norm_num [pco2Poly]
  have p2 : pco2Of (toSea * u) < 0.5 := by
    refine lt_of_le_of_lt (C25_strictMono.monotone (show toSea * u ≤ (0.32 : ℝ) by nlinarith)) ?_
    rw [pco2Of, if_neg (by norm_num [zCo2Max])]
    norm_num [pco2Poly]
  have c1 : 279 < c := by rw [hc]; norm_num at *; linarith
  have c2 : c < 279.15 := by rw [hc]; norm_num at *; linarith
  have hw : mm = initialMaxMin c yearlySteps.preindustrial_co2_conc (17.22 * Real.log (c / 278)) := by
    simp only [mm, yearly_width]
  have cpos : 0 < c / 278 := div_pos (by linarith) (by norm_num)
  have w1 : 17.22 * Real.log (c / 278) ≤ 0.08 := by
    have := Real.log_le_sub_one_of_pos cpos
    norm_num at *
    linarith
  have w2 : 0 < Real.log (c / 278) := Real.log_pos (by rw [lt_div_iff₀ (by norm_num)]; linarith)
  generalize Real.log (c / 278) = l at hw w1 w2
  have hmm : mm = ((c - 278) * 2.123 + 8 * (17.22 * l) + 1, (c - 278) * 2.123 - 4 * (17.22 * l) - 1) := by
    have e8 : (8.0 : ℝ) = 8 := by norm_num
    have e4 : (4.0 : ℝ) = 4 := by norm_num
    have e1 : (1.0 : ℝ) = 1 := by norm_num
    have e278 : yearlySteps.preindustrial_co2_conc = 278 := by norm_num [yearlySteps, Pams.default]
    rw [hw]
    simp only [initialMaxMin, PPM_CO2_TO_PG_C, e8, e4, e1, e278]
    rw [if_pos (by norm_num at *; linarith : (c - 278) * 2.123 - 4 * (17.22 * l) < (c - 278) * 2.123 + 8 * (17.22 * l)),
      if_neg (by norm_num at *; linarith : ¬ (c - 278) * 2.123 + 8 * (17.22 * l) < (c - 278) * 2.123 - 4 * (17.22 * l)),
      if_pos (by norm_num at *; linarith)]
  have mono := (C79_more_emission yearlySteps rfl yearly_responsive (initState yearlySteps) 0 (some 0)).1.monotone
  refine ⟨rfl, yearly_responsive, by intro x hx; rw [List.mem_singleton.1 hx]; linarith, mono ?_, mono ?_⟩
  · rw [hmm]; norm_num at *; linarith
  · rw [hmm]; norm_num at *; linarith

end Verif.Props
