import Verif.Props.C36
import Verif.Props.C33_C34
import Verif.Model.TwoLayer

/-!
# C37, C38, C39: upper-ocean heat content, feedback updates, forcing ramp
-/

namespace Verif.Props.C37_C38_C39
open Verif.Py Verif.Model.UDM Verif.Spec.Tridiag Verif.Spec.Diffusion Verif.Lemmas Verif.Lemmas.UDM
  Verif.Lemmas.Tridiag Verif.Props.C35 Verif.Props.C36 Verif.Props.C33_C34
open Finset (range)

/-! ## C37 -/

theorem thickness_eq (p : Pams ℝ) (i : ℕ) : thickness p i = dz p i := by
  unfold thickness dz; rw [sci100]

theorem top_succ (p : Pams ℝ) (i : ℕ) : top p (i + 1) = p.mixed + 100 * i := by
  unfold top
  induction i with
  | zero => simp [thickness]
  | succ i ih => rw [Finset.sum_range_succ, ih, thickness, if_neg (by omega)]; push_cast; ring

/-- The layers the code counts fully, the one it counts partly and those below, against the depth
range they occupy. -/
theorem above_700 {p : Pams ℝ} (h0 : 0 < p.mixed) (h1 : p.mixed ≤ 700) (i : ℕ) :
    above p 700 i = if (i : ℤ) < maxLayer p then dz p i
      else if (i : ℤ) = maxLayer p then fracLayer p * dz p i else 0 := by
  have hq0 : (0 : ℤ) ≤ ⌊p.mixed / 100⌋ := Int.floor_nonneg.2 (by positivity)
  have hq1 : ((⌊p.mixed / 100⌋ : ℤ) : ℝ) ≤ p.mixed / 100 := Int.floor_le _
  have hq2 : p.mixed / 100 < ((⌊p.mixed / 100⌋ : ℤ) : ℝ) + 1 := Int.lt_floor_add_one _
  have hq7 : ⌊p.mixed / 100⌋ ≤ 7 := by
    have : ((⌊p.mixed / 100⌋ : ℤ) : ℝ) ≤ 7 := by linarith
    exact_mod_cast this
  have hf : fracLayer p = 1 + ((⌊p.mixed / 100⌋ : ℤ) : ℝ) - p.mixed / 100 := by
    unfold fracLayer; rw [dz_zero, sci100, sci1, mofInt]; rfl
  rw [maxLayer_eq]
  have hd := dz_pos h0 i
  unfold above
  rw [thickness_eq, hf]
  generalize ⌊p.mixed / 100⌋ = q at *
  cases i with
  | zero =>
    have ht : top p 0 = 0 := by simp [top]
    rw [ht, sub_zero, dz_zero, min_eq_left h1, max_eq_right h0.le]
    split
    · rfl
    · rename_i hn
      have hq : q = 7 := by push_cast at hn; omega
      subst hq
      rw [if_pos (by norm_num)]
      have : p.mixed = 700 := by push_cast at hq1; linarith
      rw [this]; norm_num
  | succ k =>
    rw [dz_succ, top_succ]
    split
    · rename_i hlt
      have : ((k : ℤ) : ℝ) + 1 ≤ 7 - (q : ℝ) - 1 := by
        exact_mod_cast (by push_cast at hlt; omega : (k : ℤ) + 1 ≤ 7 - q - 1)
      rw [Int.cast_natCast] at this
      rw [min_eq_left (by linarith), max_eq_right (by norm_num)]
    · split
      · rename_i _ heq
        have : ((k : ℤ) : ℝ) + 1 = 7 - (q : ℝ) := by
          exact_mod_cast (by push_cast at heq; omega : (k : ℤ) + 1 = 7 - q)
        rw [Int.cast_natCast] at this
        rw [min_eq_right (by linarith), max_eq_right (by linarith)]
        have hk : (k : ℝ) = 6 - q := by linarith
        rw [hk]; ring
      · rename_i hn hne
        have : 7 - (q : ℝ) ≤ ((k : ℤ) : ℝ) := by
          exact_mod_cast (by push_cast at hn hne; omega : 7 - q ≤ (k : ℤ))
        rw [Int.cast_natCast] at this
        rw [max_eq_left]
        exact (min_le_right _ _).trans (by linarith)

theorem range_slice {n k : ℕ} (h : k ≤ n) : pySlice (List.range n) 0 (k : ℤ) = List.range k := by
  have h0 : sliceBound (List.range n).length 0 = 0 := by unfold sliceBound; simp
  have hk : sliceBound (List.range n).length (k : ℤ) = k := by
    unfold sliceBound
    rw [List.length_range, if_neg (by omega)]
    omega
  unfold pySlice
  rw [h0, hk, List.drop_zero, List.take_range, min_eq_left h]

theorem range_index {n : ℕ} {k : ℕ} {j : ℕ} (h : pyIndex (List.range n) (k : ℤ) = .ok j) :
    k < n ∧ j = k := by
  unfold pyIndex at h
  rw [if_neg (by omega), Int.toNat_natCast] at h
  cases e : (List.range n)[k]? with
  | none => rw [e] at h; cases h
  | some x =>
    rw [e] at h
    simp only at h
    rw [if_neg (by omega)] at h
    obtain ⟨hk, hx⟩ := List.getElem?_eq_some_iff.1 e
    rw [List.getElem_range] at hx
    cases h
    exact ⟨by simpa using hk, hx.symm⟩

theorem havtemp_eq (m : Model ℝ) (i : ℕ) :
    havtemp m i = ohcUnit * (dz m.p i * (m.p.foan * m.tn i + m.p.foas * m.ts i)) := by
  unfold havtemp ohcUnit
  norm_num
  ring

theorem ohc700_eq {m : Model ℝ} (h0 : 0 < m.p.mixed) (h1 : m.p.mixed ≤ 700) {r : ℝ × ℝ}
    (h : oceanTemperature m = .ok r) :
    r.1 = ohcUnit * ∑ i ∈ range m.p.lm, above m.p 700 i * (m.p.foan * m.tn i + m.p.foas * m.ts i) ∧
    (m.p.lm : ℤ) > maxLayer m.p := by
  obtain ⟨j, hj, e1, _⟩ := oceanTemperature_eq h
  have hq7 : ⌊m.p.mixed / 100⌋ ≤ 7 := by
    have : ⌊m.p.mixed / 100⌋ < 8 := by
      rw [Int.floor_lt]; push_cast; rw [div_lt_iff₀ (by norm_num)]; linarith
    omega
  have hK0 : 0 ≤ maxLayer m.p := by rw [maxLayer_eq]; omega
  obtain ⟨K, hK⟩ := Int.eq_ofNat_of_zero_le hK0
  rw [hK] at hj e1
  obtain ⟨hlt, hjK⟩ := range_index hj
  rw [hjK] at e1
  rw [e1, range_slice hlt.le, sum_map_range]
  refine ⟨?_, by rw [hK]; exact_mod_cast hlt⟩
  obtain ⟨d, hd⟩ : ∃ d, m.p.lm = K + 1 + d := ⟨m.p.lm - (K + 1), by omega⟩
  have hz : ∑ x ∈ range d, above m.p 700 (K + 1 + x)
      * (m.p.foan * m.tn (K + 1 + x) + m.p.foas * m.ts (K + 1 + x)) = 0 := by
    refine Finset.sum_eq_zero fun x _ => ?_
    rw [above_700 h0 h1, hK, if_neg (by push_cast; omega), if_neg (by push_cast; omega), zero_mul]
  rw [hd, Finset.sum_range_add, hz, add_zero, Finset.sum_range_succ, mul_add, Finset.mul_sum]
  congr 1
  · refine Finset.sum_congr rfl fun i hi => ?_
    have : i < K := Finset.mem_range.1 hi
    rw [havtemp_eq, above_700 h0 h1, hK, if_pos (by exact_mod_cast this)]
  · rw [havtemp_eq, above_700 h0 h1, hK, if_neg (by omega), if_pos rfl]
    ring

/-- **C37** (mixed layer at most 700 m deep). In every year of every history the reported heat
content of the upper 700 m counts each layer with exactly the part of it that lies above 700 m, and
these parts add up to 700 m. -/
theorem C37_upper700_partial {solve : Solver ℝ} (hs : Exact solve) {p : Pams ℝ} {m0 : Model ℝ}
    (hc : create p = .ok m0) (h0 : 0 < p.mixed) (h1 : p.mixed ≤ 700) (ys : List (Year ℝ))
    {outs : List (Out ℝ)} {m : Model ℝ} (h : run solve m0 ys = .ok (outs, m)) :
    ∀ o ∈ outs,
      o.OHC700 = ohcUnit * ∑ i ∈ range p.lm, above p 700 i * (p.foan * o.tn i + p.foas * o.ts i) ∧
      ∑ i ∈ range p.lm, above p 700 i = 700 := by
  rw [create_ok hc] at h
  induction ys using List.reverseRecOn generalizing outs m with
  | nil => obtain ⟨rfl, _⟩ := run_nil.1 h; simp
  | append_singleton ys y ih =>
    obtain ⟨os, m1, o, g1, g2, rfl⟩ := run_snoc.1 h
    have a := run_after hs g1
    obtain ⟨r, h7, ht7, e1, e2, e3, q1, q2, _, _, _, _, _, _, q7, _⟩ := energyBudget_ok g2
    have sy := subSteps_same hs (setFeedback_ready a.ready y.w_aero) e1
    have e4 : m.p = p := by
      rw [e2]; exact sy.p.trans ((setFeedback_fields m1 y.w_aero).1.trans a.pams)
    have t1 : m.tn = o.tn ∧ m.ts = o.ts := by rw [e2, q1, q2]; exact ⟨rfl, rfl⟩
    intro o' ho'
    rw [List.mem_append, List.mem_singleton] at ho'
    rcases ho' with ho' | rfl
    · exact ih g1 o' ho'
    · have H := ohc700_eq (by rw [e4]; exact h0) (by rw [e4]; exact h1) e3
      rw [e4, t1.1, t1.2] at H
      refine ⟨q7.trans H.1, ?_⟩
      have hq7 : ⌊p.mixed / 100⌋ ≤ 7 := by
        have : ⌊p.mixed / 100⌋ < 8 := by
          rw [Int.floor_lt]; push_cast; rw [div_lt_iff₀ (by norm_num)]; linarith
        omega
      have hK0 : 0 ≤ maxLayer p := by rw [maxLayer_eq]; omega
      obtain ⟨K, hK⟩ := Int.eq_ofNat_of_zero_le hK0
      have hlt : K < p.lm := by have := H.2; rw [hK] at this; exact_mod_cast this
      obtain ⟨d, hd⟩ : ∃ d, p.lm = K + 1 + d := ⟨p.lm - (K + 1), by omega⟩
      have hz : ∑ x ∈ range d, above p 700 (K + 1 + x) = 0 := by
        refine Finset.sum_eq_zero fun x _ => ?_
        rw [above_700 h0 h1, hK, if_neg (by push_cast; omega), if_neg (by push_cast; omega)]
      have hf : ∑ x ∈ range K, above p 700 x = top p K := by
        refine Finset.sum_congr rfl fun i hi => ?_
        have : i < K := Finset.mem_range.1 hi
        rw [above_700 h0 h1, hK, if_pos (by exact_mod_cast this), thickness_eq]
      have hl : above p 700 K = 700 - top p K := by
        have e := above_700 h0 h1 K
        rw [hK, if_neg (by omega), if_pos rfl] at e
        rw [e]
        have hf : fracLayer p = 1 + ((⌊p.mixed / 100⌋ : ℤ) : ℝ) - p.mixed / 100 := by
          unfold fracLayer; rw [dz_zero, sci100, sci1, mofInt]; rfl
        rw [maxLayer_eq] at hK
        have hq : ((⌊p.mixed / 100⌋ : ℤ) : ℝ) = 7 - K := by
          have : (⌊p.mixed / 100⌋ : ℤ) = 7 - K := by omega
          rw [this]; push_cast; ring
        rw [hf, hq]
        cases K with
        | zero =>
          have hq1 : ((⌊p.mixed / 100⌋ : ℤ) : ℝ) ≤ p.mixed / 100 := Int.floor_le _
          rw [hq] at hq1
          have : p.mixed = 700 := by push_cast at hq1; linarith
          simp [top, this]; norm_num
        | succ k => rw [top_succ, dz_succ]; push_cast; ring
      rw [hd, Finset.sum_range_add, hz, add_zero, Finset.sum_range_succ, hf, hl]
      ring

/-- The default parameters meet the hypotheses. -/
example (n : ℕ) : ∃ outs m, run exactSolver (init flatPams) (List.replicate n warmYear) = .ok (outs, m) ∧
    outs.length = n ∧ 0 < flatPams.mixed ∧ flatPams.mixed ≤ 700 := by
  obtain ⟨outs, m, h, hl⟩ := C35_run_succeeds exactSolver_exact flat_physical rfl flat_ordered
    flat_deep flat_created (List.replicate n warmYear)
    (fun y hy => by rw [List.eq_of_mem_replicate hy]; constructor <;> simp [warmYear])
    (fun y _ => flat_feedback _)
  exact ⟨outs, m, h, by simpa using hl, flat_physical.mixed, flat_deep.shallow⟩

/-- A model with a mixed layer of 750 m, warmed by 1 K everywhere. -/
noncomputable def deepMixed : Model ℝ :=
  { init { flatPams with mixed := 750 } with tn := fun _ => 1, ts := fun _ => 1 }

/-- **C37** is false for deeper mixed layers: with 750 m, all of it 1 K warmer, the reported heat
content of the upper 700 m is that of 375 m. -/
theorem C37_upper700_false : ∃ h7 htot, oceanTemperature deepMixed = .ok (h7, htot) ∧
    h7 = ohcUnit * 375 * (flatPams.foan + flatPams.foas) ∧
    h7 ≠ ohcUnit * 700 * (flatPams.foan + flatPams.foas) := by
  have hp : deepMixed.p = { flatPams with mixed := 750 } := rfl
  have hq : ⌊(750 : ℝ) / 100⌋ = 7 := by rw [Int.floor_eq_iff]; constructor <;> norm_num
  have hm : maxLayer deepMixed.p = 0 := by rw [maxLayer_eq, hp]; simp only; rw [hq]; rfl
  have hf : fracLayer deepMixed.p = 0.5 := by
    unfold fracLayer
    rw [dz_zero, sci100, sci1, mofInt, hp]
    simp only
    change 1 + ((⌊(750 : ℝ) / 100⌋ : ℤ) : ℝ) - 750 / 100 = 0.5
    rw [hq]; norm_num
  have hl : deepMixed.p.lm = 40 := rfl
  have hi : pyIndex (List.range deepMixed.p.lm) (maxLayer deepMixed.p) = .ok 0 := by
    rw [hm, hl]; rfl
  refine ⟨_, _, oceanTemperature_of hi, ?_, ?_⟩
  all_goals
    rw [hm, hf, hl, havtemp_eq, dz_zero]
    have : pySlice (List.range 40) 0 0 = [] := by rfl
    rw [this]
    have hx : deepMixed.p.mixed = 750 := rfl
    have hn : deepMixed.p.foan = flatPams.foan := rfl
    have hs : deepMixed.p.foas = flatPams.foas := rfl
    have ht : deepMixed.tn 0 = 1 := rfl
    have hu : deepMixed.ts 0 = 1 := rfl
    rw [hx, hn, hs, ht, hu, List.map_nil, List.sum_nil]
  · norm_num; ring
  · have h1 : (0 : ℝ) < ohcUnit := by unfold ohcUnit; norm_num
    have h2 : (0 : ℝ) < flatPams.foan + flatPams.foas := by
      have := flat_physical.north; have := flat_physical.south; linarith
    have := mul_pos h1 h2
    norm_num
    intro h
    nlinarith

theorem indexError_of_shallow {m : Model ℝ} (hlm : (m.p.lm : ℤ) ≤ maxLayer m.p) :
    oceanTemperature m = .error .indexError := by
  unfold oceanTemperature pyIndex
  have hl : (havtemps m).length = m.p.lm := by simp [havtemps]
  have h0 : ¬ maxLayer m.p < 0 := by omega
  rw [if_neg h0, List.getElem?_eq_none (by rw [hl]; omega)]
  rfl

/-- **C37.** An ocean that does not reach 700 m is refused: no history of one year or more can be
computed. -/
theorem C37_ocean_too_shallow {solve : Solver ℝ} (hs : Exact solve) {p : Pams ℝ} {m0 : Model ℝ}
    (hc : create p = .ok m0) (hlm : 1 ≤ p.lm) (hd : top p p.lm < 700) (y : Year ℝ)
    (ys : List (Year ℝ)) : ∀ r, run solve m0 (y :: ys) ≠ .ok r := by
  rintro ⟨os, m⟩ h
  rw [create_ok hc] at h
  obtain ⟨o, m1, _, h1, _, _⟩ := run_cons.1 h
  obtain ⟨r, h7, ht7, e1, e2, e3, _⟩ := energyBudget_ok h1
  have sy := subSteps_same hs (setFeedback_ready (init_ready p) y.w_aero) e1
  have e4 : m1.p = p := by
    rw [e2]; exact sy.p.trans (setFeedback_fields (init p) y.w_aero).1
  rw [indexError_of_shallow] at e3
  · cases e3
  · rw [e4, maxLayer_eq]
    obtain ⟨k, hk⟩ : ∃ k, p.lm = k + 1 := ⟨p.lm - 1, by omega⟩
    rw [hk, top_succ] at hd
    have hq1 : ((⌊p.mixed / 100⌋ : ℤ) : ℝ) ≤ p.mixed / 100 := Int.floor_le _
    have : ((⌊p.mixed / 100⌋ : ℤ) : ℝ) + ((k : ℤ) : ℝ) < 7 := by rw [Int.cast_natCast]; linarith
    have : ⌊p.mixed / 100⌋ + (k : ℤ) < 7 := by exact_mod_cast this
    rw [hk]; push_cast; omega

/-- A six-layer ocean with the default mixed layer ends at 607 m. -/
example : ∃ p : Pams ℝ, create p = .ok (init p) ∧ 1 ≤ p.lm ∧ top p p.lm < 700 := by
  have hp : Physical { flatPams with lm := 6 } := by
    constructor <;> simp only [flatPams] <;> norm_num
  refine ⟨{ flatPams with lm := 6 }, create_of hp (by simp only [flatPams]; norm_num), by norm_num, ?_⟩
  rw [show (({ flatPams with lm := 6 } : Pams ℝ)).lm = 5 + 1 from rfl, top_succ]
  simp only [flatPams]; norm_num

/-! ## C38 -/

section
variable {F : Type} [Add F] [Sub F] [Mul F] [Div F] [Neg F] [OfScientific F] [LT F] [DecidableLT F]
  [MathFn F]

theorem setFeedback_twice (m : Model F) (w w' : F) :
    setFeedback (setFeedback m w') w = setFeedback m w := by
  have hp : (setFeedback m w').p = m.p := by unfold setFeedback; split <;> rfl
  by_cases h : isEq m.p.delta_lambda_aero 0.0 = true
  · have : ∀ x : F, setFeedback m x = m := fun x => by unfold setFeedback; rw [if_pos h]
    rw [this, this]
  · have key : ∀ (m : Model F) (x : F), ¬ isEq m.p.delta_lambda_aero 0.0 = true →
        setFeedback m x = setupEbud { m with
          rlamda := 1.0 / m.p.lambda + x * m.p.delta_lambda_aero
          fnx := fnxOf m.p (1.0 / m.p.lambda + x * m.p.delta_lambda_aero)
          fsx := fsxOf m.p (1.0 / m.p.lambda + x * m.p.delta_lambda_aero) } :=
      fun m x h => by unfold setFeedback; rw [if_neg h]
    rw [key _ w (by rw [hp]; exact h), key m w h, key m w' h]
    rfl

/-- **C38**, diffusion model, for every number type: a sequence of feedback updates leaves exactly the
object the last of them alone would have left. -/
theorem C38_diffusion_last_update (m : Model F) (ws : List F) (w : F) :
    setFeedback (ws.foldl setFeedback m) w = setFeedback m w := by
  induction ws generalizing m with
  | nil => rfl
  | cons v ws ih => rw [List.foldl_cons, ih, setFeedback_twice]

end

/-- **C38**, diffusion model: after any history of years, an update with weight `w` sets the feedback
configured for `w`; with a zero coefficient it changes nothing at all. -/
theorem C38_diffusion_history {solve : Solver ℝ} (hs : Exact solve) {p : Pams ℝ} {m0 : Model ℝ}
    (hc : create p = .ok m0) (ys : List (Year ℝ)) {outs : List (Out ℝ)} {m : Model ℝ}
    (h : run solve m0 ys = .ok (outs, m)) (w : ℝ) :
    (setFeedback m w).rlamda = feedback p w ∧
    (p.delta_lambda_aero = 0 → setFeedback m w = m ∧ m.rlamda = 1 / p.lambda) := by
  rw [create_ok hc] at h
  have a := run_after hs h
  refine ⟨a.feedback w, fun h0 => ⟨?_, a.rlamda h0⟩⟩
  unfold setFeedback
  rw [a.pams, h0, if_pos (by rw [misEq, sci0])]

/-- The default parameters meet the hypotheses, for any number of years. -/
example (n : ℕ) (w : ℝ) : ∃ outs m,
    run exactSolver (init flatPams) (List.replicate n warmYear) = .ok (outs, m) ∧
    (setFeedback m w).rlamda = feedback flatPams w := by
  obtain ⟨outs, m, h, _⟩ := C35_run_succeeds exactSolver_exact flat_physical rfl flat_ordered
    flat_deep flat_created (List.replicate n warmYear)
    (fun y hy => by rw [List.eq_of_mem_replicate hy]; constructor <;> simp [warmYear])
    (fun y _ => flat_feedback _)
  exact ⟨outs, m, h, (C38_diffusion_history exactSolver_exact flat_created _ h w).1⟩

/-- The aerosol weight given last in a sequence of years, zero before the first. -/
noncomputable def latest (ys : List (Model.TwoLayer.Year ℝ)) : ℝ :=
  ((ys.filterMap Model.TwoLayer.Year.w_aero).getLast?).getD 0

/-- **C38**, two-layer model: after any history of years, with or without updates, the effective
feedback is that of the latest weight. -/
theorem C38_twolayer_history (p : Model.TwoLayer.Pams ℝ) (ys : List (Model.TwoLayer.Year ℝ)) :
    (Model.TwoLayer.run p (Model.TwoLayer.init p) ys).1.lambda_eff
      = p.lambda + latest ys * p.delta_lambda_aero := by
  have key : ∀ (ys : List (Model.TwoLayer.Year ℝ)) (st : Model.TwoLayer.State ℝ),
      (Model.TwoLayer.run p st ys).1.lambda_eff
        = (((ys.filterMap Model.TwoLayer.Year.w_aero).getLast?).map
            (fun w => p.lambda + w * p.delta_lambda_aero)).getD st.lambda_eff := by
    intro ys
    induction ys with
    | nil => intro st; rfl
    | cons y ys ih =>
      intro st
      simp only [Model.TwoLayer.run]
      rw [ih]
      cases hw : y.w_aero with
      | none =>
        rw [List.filterMap_cons_none hw]
        rfl
      | some w =>
        rw [List.filterMap_cons_some hw]
        cases hl : (List.filterMap Model.TwoLayer.Year.w_aero ys).getLast? with
        | none =>
          rw [List.getLast?_eq_none_iff.1 hl]
          rfl
        | some v => rw [List.getLast?_cons, hl]; rfl
  rw [key]
  unfold latest
  cases (List.filterMap Model.TwoLayer.Year.w_aero ys).getLast? with
  | none => simp [Model.TwoLayer.init]
  | some v => rfl

/-! ## C39 -/

/-- **C39.** The forcing of sub-step `im` of `n`: a convex combination of last year's and this year's
value plus the volcanic forcing; this year's value in the last sub-step; a constant value is passed
on unchanged. -/
theorem C39_ramp {n im : ℕ} (him : im < n) (new old volc : ℝ) :
    (∃ t : ℝ, t = ((im + 1 : ℕ) : ℝ) / n ∧ 0 < t ∧ t ≤ 1 ∧
      rampForcing (n : ℤ) im new old volc = (t * new + (1 - t) * old) + volc) ∧
    (im + 1 = n → rampForcing (n : ℤ) im new old volc = new + volc) ∧
    (new = old → rampForcing (n : ℤ) im new old volc = new + volc) := by
  have hn : (0 : ℝ) < n := by exact_mod_cast (by omega : 0 < n)
  have e : rampForcing (n : ℤ) im new old volc = (((im + 1 : ℕ) : ℝ) / n * new
      + (1 - ((im + 1 : ℕ) : ℝ) / n) * old) + volc := by
    unfold rampForcing
    simp only [mofInt, sci1]
    push_cast
    ring
  refine ⟨⟨_, rfl, by positivity, ?_, e⟩, ?_, ?_⟩
  · rw [div_le_one hn]; exact_mod_cast him
  · intro h; rw [e, h, div_self hn.ne']; ring
  · rintro rfl; rw [e]; ring

/-- **C39.** In every sub-step of every year of every history the surface energy balance is driven by
that ramp, from the forcing of the year before (zero before the first) to this year's. The air and sea
temperatures of the sub-step are what it adds to the yearly means, times the number of sub-steps. -/
theorem C39_substep {solve : Solver ℝ} (hs : Exact solve) {p : Pams ℝ} (hp : Physical p)
    {m0 : Model ℝ} (hc : create p = .ok m0) {ys : List (Year ℝ)} {outs : List (Out ℝ)} {m : Model ℝ}
    (hrun : run solve m0 ys = .ok (outs, m)) (y : Year ℝ) (hf : 0 < feedback p y.w_aero)
    {k : ℕ} {s s' : Model ℝ × Model.UDM.Acc ℝ}
    (h1 : (List.range k).foldlM (subStep solve y.fn y.fs y.vn y.vs)
      (setFeedback m y.w_aero, Acc.zero) = .ok s)
    (h2 : subStep solve y.fn y.fs y.vn y.vs s k = .ok s') :
    feedback p y.w_aero * (p.ldtime * (s'.2.tempn_air - s.2.tempn_air))
        + p.foan * p.rlamdo * (p.ldtime * (s'.2.tempn_air - s.2.tempn_air)
            - p.ldtime * (s'.2.tempn_sea - s.2.tempn_sea))
        + p.ebbeta * (p.ldtime * (s'.2.tempn_air - s.2.tempn_air)
            - p.ldtime * (s'.2.temps_air - s.2.temps_air))
      = ((k + 1 : ℕ) : ℝ) / p.ldtime * y.fn + (1 - ((k + 1 : ℕ) : ℝ) / p.ldtime) * before ys Year.fn
        + y.vn.getD (k % y.vn.length) 0 ∧
    feedback p y.w_aero * (p.ldtime * (s'.2.temps_air - s.2.temps_air))
        + p.foas * p.rlamdo * (p.ldtime * (s'.2.temps_air - s.2.temps_air)
            - p.ldtime * (s'.2.temps_sea - s.2.temps_sea))
        + p.ebbeta * (p.ldtime * (s'.2.temps_air - s.2.temps_air)
            - p.ldtime * (s'.2.tempn_air - s.2.tempn_air))
      = ((k + 1 : ℕ) : ℝ) / p.ldtime * y.fs + (1 - ((k + 1 : ℕ) : ℝ) / p.ldtime) * before ys Year.fs
        + y.vs.getD (k % y.vn.length) 0 := by
  rw [create_ok hc] at hrun
  have a := run_after hs hrun
  obtain ⟨f1, f2, f3, f4, f5⟩ := setFeedback_fields m y.w_aero
  have hr := setFeedback_ready a.ready y.w_aero
  have hph := a.phys hp hf
  have hn := ldtime_ne hph
  have e := f1.trans a.pams
  have hb : SameYear (setFeedback m y.w_aero) s.1 :=
    foldlM_range_inv (fun _ (s : Model ℝ × Model.UDM.Acc ℝ) => SameYear (setFeedback m y.w_aero) s.1)
      (SameYear.refl hr) (fun k _ b b' hb hk => hb.trans (SameYear.subStep hs hb.ready hk)) h1
  obtain ⟨tn, ts, m1, hm1, _, _, _, e1, e2⟩ := subStep_spec hs hb.ready h2
  have hm := hb.trans (SameYear.refresh hb.ready s.2.temp1n s.2.temp1s)
  rw [← hm1] at hm
  have hp1 : Phys m1.p m1.rlamda := by rw [hm.p, hm.rlamda]; exact hph
  have c1 := balance_north hm.ready.base hp1 (applied s.1 y.fn y.fs y.vn y.vs k).1
    (applied s.1 y.fn y.fs y.vn y.vs k).2 (tn 0) (ts 0)
  have c2 := balance_south hm.ready.base hp1 (applied s.1 y.fn y.fs y.vn y.vs k).1
    (applied s.1 y.fn y.fs y.vn y.vs k).2 (tn 0) (ts 0)
  rw [hm.p, hm.rlamda, a.feedback, e] at c1 c2
  have hA : (applied s.1 y.fn y.fs y.vn y.vs k).1 = ((k + 1 : ℕ) : ℝ) / p.ldtime * y.fn
      + (1 - ((k + 1 : ℕ) : ℝ) / p.ldtime) * before ys Year.fn + y.vn.getD (k % y.vn.length) 0 := by
    rw [hb.applied]; unfold applied rampForcing
    simp only [mofInt, sci1, e, f4, a.prevFn]; push_cast; ring
  have hB : (applied s.1 y.fn y.fs y.vn y.vs k).2 = ((k + 1 : ℕ) : ℝ) / p.ldtime * y.fs
      + (1 - ((k + 1 : ℕ) : ℝ) / p.ldtime) * before ys Year.fs + y.vs.getD (k % y.vn.length) 0 := by
    rw [hb.applied]; unfold applied rampForcing
    simp only [mofInt, sci1, e, f5, a.prevFs]; push_cast; ring
  have hl : ((setFeedback m y.w_aero).p.ldtime : ℝ) = p.ldtime := by rw [e]
  rw [hl] at hn
  have D : ∀ x z : ℝ, (p.ldtime : ℝ) * (z + x / p.ldtime - z) = x := fun x z => by field_simp; ring
  rw [e2]
  simp only [accumulate, mofInt, hm.p, e, D]
  rw [← hA, ← hB]
  exact ⟨c1, c2⟩

/-- The first sub-step of the second year with the default parameters. -/
example : ∃ outs m s s', run exactSolver (init flatPams) [warmYear] = .ok (outs, m) ∧
    (List.range 0).foldlM (subStep exactSolver warmYear.fn warmYear.fs warmYear.vn warmYear.vs)
      (setFeedback m warmYear.w_aero, Acc.zero) = .ok s ∧
    subStep exactSolver warmYear.fn warmYear.fs warmYear.vn warmYear.vs s 0 = .ok s' := by
  obtain ⟨os, m', h, hl⟩ := C35_run_succeeds exactSolver_exact flat_physical rfl flat_ordered
    flat_deep flat_created ([warmYear] ++ [warmYear])
    (fun y hy => by
      have : y = warmYear := by simpa using hy
      rw [this]; constructor <;> simp [warmYear])
    (fun y _ => flat_feedback _)
  obtain ⟨outs, m, o, h1, h2, _⟩ := run_snoc.1 h
  obtain ⟨r, _, _, e1, _⟩ := energyBudget_ok h2
  have hp := (setFeedback_fields m warmYear.w_aero).1.trans (run_after exactSolver_exact h1).pams
  unfold subSteps at e1
  rw [hp] at e1
  obtain ⟨s', h3, _⟩ := Model.Handler.foldlM_cons_ok.1
    (show (0 :: (List.range 11).map (· + 1)).foldlM _ _ = _ from e1)
  exact ⟨outs, m, _, s', h1, rfl, h3⟩

end Verif.Props.C37_C38_C39
