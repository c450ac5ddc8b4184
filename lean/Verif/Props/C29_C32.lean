import Verif.Model.TwoLayer
import Verif.Py.RealInst
import Mathlib.Topology.Order.MonotoneConvergence
import Mathlib.Topology.Algebra.Order.LiminfLimsup
import Mathlib.Analysis.SpecificLimits.Basic
import Mathlib.Tactic.FieldSimp
import Mathlib.Tactic.LinearCombination

/-!
# C29-C32: the two-layer thermal model (exact arithmetic)
-/

namespace Verif.Props
open Verif.Py Verif.Model Verif.Model.TwoLayer
open Filter Topology

/-! ## C29: heat budget -/

/-- Joules (in 1e22) per W/m2 sustained over one year on the ocean area. -/
noncomputable def yearOceanHeat : ℝ := 86400 * 365 * 3.61e14 / 1e22

/-- Total heat content of a pair of layer temperatures: depth × 1000 kg/m3 × 4184 J/kg/K × area. -/
noncomputable def heatContent (p : TwoLayer.Pams ℝ) (Tf Ts : ℝ) : ℝ :=
  (p.mixed * Tf + p.deep * Ts) * 1000 * 4184 * 3.61e14 / 1e22

/-- Top-of-atmosphere imbalance for a forcing, feedback and pair of temperatures. -/
def imbalance (p : TwoLayer.Pams ℝ) (forc lam Tf Ts : ℝ) : ℝ :=
  forc - lam * Tf - (p.ocean_efficacy - 1) * p.k * (Tf - Ts)

theorem cFast_eq (p : TwoLayer.Pams ℝ) : cFast p = p.mixed * (1000 * 4184 / (86400 * 365)) := by
  simp only [cFast, secYear]; norm_num; ring

theorem cSlow_eq (p : TwoLayer.Pams ℝ) : cSlow p = p.deep * (1000 * 4184 / (86400 * 365)) := by
  simp only [cSlow, secYear]; norm_num; ring

/-- The reported total heat content is the heat content of the reported temperatures. -/
theorem C29_reported_heat (p : TwoLayer.Pams ℝ) (st : TwoLayer.State ℝ) (nh sh : ℝ) (vn vs : List ℝ) :
    let o := (energyBudget p st nh sh vn vs).2
    o.OHCTOT = heatContent p o.dtemp_fast o.dtemp_slow ∧ o.OHCTOT = o.OHC_MIXED + o.OHC_DEEP := by
  refine ⟨?_, rfl⟩
  simp only [energyBudget, output, heatContent, cFast_eq, cSlow_eq, secYear, TwoLayer.OCEAN_AREA]
  norm_num
  ring

/-- C29: in every year, the heat content gained is the imbalance at the temperatures at the start
of the year, over one year and the ocean area. -/
theorem C29_one_year (p : TwoLayer.Pams ℝ) (hm : p.mixed ≠ 0) (hd : p.deep ≠ 0) (st : TwoLayer.State ℝ)
    (nh sh : ℝ) (vn vs : List ℝ) :
    let o := (energyBudget p st nh sh vn vs).2
    o.OHCTOT - heatContent p st.temp_fast st.temp_slow =
      imbalance p (forcing nh sh vn vs) st.lambda_eff st.temp_fast st.temp_slow * yearOceanHeat := by
  intro o
  rw [(C29_reported_heat p st nh sh vn vs).1]
  simp only [energyBudget, output, step, heatContent, cFast_eq, cSlow_eq, imbalance, yearOceanHeat]
  field_simp
  ring

/-- The sequence of states at the start of each year of a run (after the year's feedback update),
paired with the forcing of that year. -/
noncomputable def yearStarts (p : TwoLayer.Pams ℝ) (st : TwoLayer.State ℝ) : List (Year ℝ) → List (TwoLayer.State ℝ × ℝ)
  | [] => []
  | y :: ys =>
    let st := startYear p st y.w_aero
    let f := forcing y.nh y.sh y.vn y.vs
    (st, f) :: yearStarts p (step p st f) ys

/-- C29 over any run: the total heat gained is the sum of the yearly imbalances. -/
theorem C29_accumulated (p : TwoLayer.Pams ℝ) (hm : p.mixed ≠ 0) (hd : p.deep ≠ 0)
    (st : TwoLayer.State ℝ) (ys : List (Year ℝ)) :
    let fin := (run p st ys).1
    heatContent p fin.temp_fast fin.temp_slow - heatContent p st.temp_fast st.temp_slow =
      ((yearStarts p st ys).map (fun s => imbalance p s.2 s.1.lambda_eff s.1.temp_fast s.1.temp_slow)).sum
        * yearOceanHeat := by
  induction ys generalizing st with
  | nil => simp [run, yearStarts]
  | cons y ys ih =>
    simp only [run, yearStarts, List.map_cons, List.sum_cons]
    set s1 : TwoLayer.State ℝ := startYear p st y.w_aero with hs1
    have ht : s1.temp_fast = st.temp_fast ∧ s1.temp_slow = st.temp_slow := by
      rw [hs1]; cases y.w_aero <;> exact ⟨rfl, rfl⟩
    have h1 := C29_one_year p hm hd s1 y.nh y.sh y.vn y.vs
    simp only at h1
    rw [(C29_reported_heat p s1 y.nh y.sh y.vn y.vs).1] at h1
    have h2 := ih (energyBudget p s1 y.nh y.sh y.vn y.vs).1
    simp only at h2
    rw [ht.1, ht.2] at h1
    have e : (energyBudget p s1 y.nh y.sh y.vn y.vs).1 = step p s1 (forcing y.nh y.sh y.vn y.vs) := rfl
    have e1 : (energyBudget p s1 y.nh y.sh y.vn y.vs).2.dtemp_fast
      = (step p s1 (forcing y.nh y.sh y.vn y.vs)).temp_fast := rfl
    have e2 : (energyBudget p s1 y.nh y.sh y.vn y.vs).2.dtemp_slow
      = (step p s1 (forcing y.nh y.sh y.vn y.vs)).temp_slow := rfl
    rw [e1, e2] at h1
    rw [e] at h2
    rw [e, ht.1, ht.2]
    linarith

/-- With unchanged feedback the reported imbalance of a year, corrected for the change of forcing,
is what the ocean takes up in the following year. -/
theorem C29_reported_imbalance (p : TwoLayer.Pams ℝ) (hm : p.mixed ≠ 0) (hd : p.deep ≠ 0)
    (st : TwoLayer.State ℝ) (nh sh : ℝ) (vn vs : List ℝ) (nh' sh' : ℝ) (vn' vs' : List ℝ) :
    let r1 := energyBudget p st nh sh vn vs
    let r2 := energyBudget p r1.1 nh' sh' vn' vs'
    r2.2.OHCTOT - r1.2.OHCTOT =
      (r1.2.RIB + (forcing nh' sh' vn' vs' - forcing nh sh vn vs)) * yearOceanHeat := by
  intro r1 r2
  have h := C29_one_year p hm hd r1.1 nh' sh' vn' vs'
  simp only at h
  have e : r1.2.OHCTOT = heatContent p r1.1.temp_fast r1.1.temp_slow :=
    (C29_reported_heat p st nh sh vn vs).1
  rw [e]
  change r2.2.OHCTOT - _ = _ at h
  rw [h]
  have e2 : r1.2.RIB = imbalance p (forcing nh sh vn vs) r1.1.lambda_eff r1.1.temp_fast r1.1.temp_slow := by
    simp only [r1, energyBudget, output, imbalance]; norm_num
  rw [e2]
  unfold imbalance
  ring

example : (TwoLayer.Pams.default : TwoLayer.Pams ℝ).mixed ≠ 0 ∧ (TwoLayer.Pams.default : TwoLayer.Pams ℝ).deep ≠ 0 := by
  norm_num [TwoLayer.Pams.default]

/-! ## C30: stability and equilibrium -/

/-- Temperatures after `n` years of constant forcing from rest. -/
noncomputable def constRun (p : TwoLayer.Pams ℝ) (F : ℝ) : ℕ → TwoLayer.State ℝ
  | 0 => init p
  | n + 1 => step p (constRun p F n) F

/-- Step-stable parameters. -/
structure Stable (p : TwoLayer.Pams ℝ) : Prop where
  lam : 0 < p.lambda
  mixed : 0 < p.mixed
  deep : 0 < p.deep
  k : 0 < p.k
  eff : 0 ≤ p.ocean_efficacy
  cfl1 : p.lambda + p.k * p.ocean_efficacy ≤ cFast p
  cfl2 : p.k * p.ocean_efficacy / cFast p + p.k / cSlow p ≤ 1

/-- The default parameters are step-stable. -/
theorem C30_default_stable : Stable TwoLayer.Pams.default := by
  constructor <;> simp only [TwoLayer.Pams.default, cFast, cSlow, secYear] <;> norm_num

/-- A year of constant forcing: the same value in both hemispheres, no volcanoes. -/
def constYear (F : ℝ) : Year ℝ := ⟨none, F, F, List.replicate 12 0, List.replicate 12 0⟩

/-- A year of constant forcing through the full energy budget is a step of `constRun`. -/
theorem C30_constRun_is_run (p : TwoLayer.Pams ℝ) (F : ℝ) (n : ℕ) :
    (run p (init p) (List.replicate n (constYear F))).1 = constRun p F n := by
  have hF : forcing F F (List.replicate 12 0) (List.replicate 12 0) = F := by
    simp [forcing, mean, fsum_eq_sum]; norm_num
  have hstep : ∀ st ys, (run p st (constYear F :: ys)).1 = (run p (step p st F) ys).1 := by
    intro st ys
    change (run p (step p st (forcing F F (List.replicate 12 0) (List.replicate 12 0))) ys).1 = _
    rw [hF]
  have key : ∀ m st, (run p st (List.replicate m (constYear F))).1
      = Nat.iterate (fun s => step p s F) m st := by
    intro m
    induction m with
    | zero => intro st; rfl
    | succ m ih =>
      intro st
      rw [List.replicate_succ, hstep, ih, Function.iterate_succ_apply]
  rw [key]
  induction n with
  | zero => rfl
  | succ n ih => rw [Function.iterate_succ_apply', ih]; rfl

theorem constRun_lambda (p : TwoLayer.Pams ℝ) (F : ℝ) (n : ℕ) : (constRun p F n).lambda_eff = p.lambda := by
  induction n with
  | zero => rfl
  | succ n ih => exact ih

/-- The invariant of a run under constant non-negative forcing. -/
theorem const_invariant {p : TwoLayer.Pams ℝ} (h : Stable p) {F : ℝ} (hF : 0 ≤ F) (n : ℕ) :
    let s := constRun p F n
    s.temp_slow ≤ s.temp_fast ∧ s.temp_fast ≤ F / p.lambda ∧
    0 ≤ F - p.lambda * s.temp_fast - p.k * p.ocean_efficacy * (s.temp_fast - s.temp_slow) := by
  have hcf : 0 < cFast p := by rw [cFast_eq]; have := h.mixed; positivity
  have hcs : 0 < cSlow p := by rw [cSlow_eq]; have := h.deep; positivity
  have hke : 0 ≤ p.k * p.ocean_efficacy := mul_nonneg h.k.le h.eff
  induction n with
  | zero =>
    have e0 : (0.0 : ℝ) = 0 := by norm_num
    simp only [constRun, init, e0]
    refine ⟨le_refl _, div_nonneg hF h.lam.le, by simpa using hF⟩
  | succ n ih =>
    obtain ⟨h1, h2, h3⟩ := ih
    have hl := constRun_lambda p F n
    set s := constRun p F n with hs
    have hstep : constRun p F (n + 1) = step p s F := rfl
    rw [hstep]
    simp only [step, hl]
    set D := s.temp_fast - s.temp_slow with hD
    have hD0 : 0 ≤ D := by rw [hD]; linarith
    set g := F - p.lambda * s.temp_fast - p.k * p.ocean_efficacy * D with hg
    have hg' : F - s.temp_fast * p.lambda - p.k * p.ocean_efficacy * D = g := by rw [hg]; ring
    rw [hg']
    have hlam2 : p.lambda * s.temp_fast ≤ F := by
      rw [le_div_iff₀ h.lam] at h2; linarith
    have hgF : g / cFast p * cFast p = g := div_mul_cancel₀ _ hcf.ne'
    have hgnn : 0 ≤ g / cFast p := div_nonneg h3 hcf.le
    have hs' : 0 ≤ p.k * D / cSlow p := div_nonneg (mul_nonneg h.k.le hD0) hcs.le
    refine ⟨?_, ?_, ?_⟩
    · -- deep does not overtake
      have : p.k * D / cSlow p ≤ D + g / cFast p := by
        have e1 : g / cFast p = (F - p.lambda * s.temp_fast) / cFast p
            - p.k * p.ocean_efficacy / cFast p * D := by rw [hg]; field_simp
        have e2 : p.k * D / cSlow p = p.k / cSlow p * D := by field_simp
        have e3 : 0 ≤ (F - p.lambda * s.temp_fast) / cFast p := div_nonneg (by linarith) hcf.le
        have e4 := mul_le_mul_of_nonneg_right h.cfl2 hD0
        rw [e1, e2]
        nlinarith
      linarith
    · -- bounded by the equilibrium
      rw [le_div_iff₀ h.lam]
      have : p.lambda * (g / cFast p) ≤ F - p.lambda * s.temp_fast := by
        have h4 : p.lambda ≤ cFast p := by linarith [h.cfl1]
        have h5 : p.lambda * (g / cFast p) ≤ cFast p * (g / cFast p) :=
          mul_le_mul_of_nonneg_right h4 hgnn
        have h6 : 0 ≤ p.k * p.ocean_efficacy * D := mul_nonneg hke hD0
        have h7 : cFast p * (g / cFast p) = g := by rw [mul_comm]; exact hgF
        rw [h7] at h5
        rw [hg] at h5 ⊢
        linarith
      nlinarith
    · -- the surface keeps warming
      have e : F - p.lambda * (s.temp_fast + g / cFast p)
          - p.k * p.ocean_efficacy * (s.temp_fast + g / cFast p - (s.temp_slow + p.k * D / cSlow p))
          = g - (p.lambda + p.k * p.ocean_efficacy) * (g / cFast p)
            + p.k * p.ocean_efficacy * (p.k * D / cSlow p) := by
        rw [hg, hD]; ring
      rw [e]
      have h5 : (p.lambda + p.k * p.ocean_efficacy) * (g / cFast p) ≤ g := by
        have := mul_le_mul_of_nonneg_right h.cfl1 hgnn
        rw [mul_comm (cFast p), hgF] at this
        exact this
      have h6 := mul_nonneg hke hs'
      linarith

/-- C30: under constant non-negative forcing both layers warm monotonically from zero, the deep
ocean never overtakes the surface layer, and neither exceeds forcing/feedback. -/
theorem C30_monotone_bounded {p : TwoLayer.Pams ℝ} (h : Stable p) {F : ℝ} (hF : 0 ≤ F) (n : ℕ) :
    (constRun p F n).temp_fast ≤ (constRun p F (n + 1)).temp_fast ∧
    (constRun p F n).temp_slow ≤ (constRun p F (n + 1)).temp_slow ∧
    0 ≤ (constRun p F n).temp_slow ∧
    (constRun p F n).temp_slow ≤ (constRun p F n).temp_fast ∧
    (constRun p F n).temp_fast ≤ F / p.lambda := by
  have hcf : 0 < cFast p := by rw [cFast_eq]; have := h.mixed; positivity
  have hcs : 0 < cSlow p := by rw [cSlow_eq]; have := h.deep; positivity
  have stepSlow : ∀ m, (constRun p F m).temp_slow ≤ (constRun p F (m + 1)).temp_slow := by
    intro m
    obtain ⟨h1, _, _⟩ := const_invariant h hF m
    change _ ≤ (step p (constRun p F m) F).temp_slow
    simp only [step]
    have : 0 ≤ p.k * ((constRun p F m).temp_fast - (constRun p F m).temp_slow) / cSlow p :=
      div_nonneg (mul_nonneg h.k.le (by linarith)) hcs.le
    linarith
  obtain ⟨h1, h2, h3⟩ := const_invariant h hF n
  refine ⟨?_, stepSlow n, ?_, h1, h2⟩
  · change _ ≤ (step p (constRun p F n) F).temp_fast
    simp only [step, constRun_lambda]
    have : 0 ≤ (F - (constRun p F n).temp_fast * p.lambda
      - p.k * p.ocean_efficacy * ((constRun p F n).temp_fast - (constRun p F n).temp_slow)) / cFast p :=
      div_nonneg (by linarith) hcf.le
    linarith
  · have := monotone_nat_of_le_succ stepSlow (Nat.zero_le n)
    have e0 : (constRun p F 0).temp_slow = 0 := by simp only [constRun, init]; norm_num
    linarith

/-- C30: both layers converge to forcing/feedback. -/
theorem C30_equilibrium {p : TwoLayer.Pams ℝ} (h : Stable p) {F : ℝ} (hF : 0 ≤ F) :
    Tendsto (fun n => (constRun p F n).temp_fast) atTop (𝓝 (F / p.lambda)) ∧
    Tendsto (fun n => (constRun p F n).temp_slow) atTop (𝓝 (F / p.lambda)) := by
  have hcf : 0 < cFast p := by rw [cFast_eq]; have := h.mixed; positivity
  have hcs : 0 < cSlow p := by rw [cSlow_eq]; have := h.deep; positivity
  have mf : Monotone (fun n => (constRun p F n).temp_fast) :=
    monotone_nat_of_le_succ fun n => (C30_monotone_bounded h hF n).1
  have ms : Monotone (fun n => (constRun p F n).temp_slow) :=
    monotone_nat_of_le_succ fun n => (C30_monotone_bounded h hF n).2.1
  have bf : BddAbove (Set.range fun n => (constRun p F n).temp_fast) :=
    ⟨F / p.lambda, by rintro _ ⟨n, rfl⟩; exact (C30_monotone_bounded h hF n).2.2.2.2⟩
  have bs : BddAbove (Set.range fun n => (constRun p F n).temp_slow) :=
    ⟨F / p.lambda, by
      rintro _ ⟨n, rfl⟩
      obtain ⟨_, _, _, h4, h5⟩ := C30_monotone_bounded h hF n
      exact le_trans h4 h5⟩
  have lf := tendsto_atTop_ciSup mf bf
  have ls := tendsto_atTop_ciSup ms bs
  set A := ⨆ n, (constRun p F n).temp_fast
  set B := ⨆ n, (constRun p F n).temp_slow
  have lf1 : Tendsto (fun n => (constRun p F (n + 1)).temp_fast) atTop (𝓝 A) :=
    lf.comp (tendsto_add_atTop_nat 1)
  have ls1 : Tendsto (fun n => (constRun p F (n + 1)).temp_slow) atTop (𝓝 B) :=
    ls.comp (tendsto_add_atTop_nat 1)
  -- slow layer: limit of the update equation
  have ls2 : Tendsto (fun n => (constRun p F (n + 1)).temp_slow) atTop (𝓝 (B + p.k * (A - B) / cSlow p)) := by
    have : (fun n => (constRun p F (n + 1)).temp_slow) = fun n => (constRun p F n).temp_slow +
        p.k * ((constRun p F n).temp_fast - (constRun p F n).temp_slow) / cSlow p := by
      funext n; rfl
    rw [this]
    exact ls.add (((lf.sub ls).const_mul p.k).div_const _)
  have hAB : A = B := by
    have := tendsto_nhds_unique ls1 ls2
    have h0 : p.k * (A - B) / cSlow p = 0 := by linarith
    rw [div_eq_zero_iff] at h0
    rcases h0 with h0 | h0
    · rcases mul_eq_zero.1 h0 with h0 | h0
      · exact absurd h0 h.k.ne'
      · linarith
    · exact absurd h0 hcs.ne'
  have lf2 : Tendsto (fun n => (constRun p F (n + 1)).temp_fast) atTop
      (𝓝 (A + (F - A * p.lambda - p.k * p.ocean_efficacy * (A - B)) / cFast p)) := by
    have : (fun n => (constRun p F (n + 1)).temp_fast) = fun n => (constRun p F n).temp_fast +
        (F - (constRun p F n).temp_fast * p.lambda - p.k * p.ocean_efficacy *
          ((constRun p F n).temp_fast - (constRun p F n).temp_slow)) / cFast p := by
      funext n
      change (step p (constRun p F n) F).temp_fast = _
      simp only [step, constRun_lambda]
    rw [this]
    exact lf.add ((((tendsto_const_nhds (x := F)).sub (lf.mul_const _)).sub
      ((lf.sub ls).const_mul _)).div_const _)
  have hA : A = F / p.lambda := by
    have := tendsto_nhds_unique lf1 lf2
    have h0 : (F - A * p.lambda - p.k * p.ocean_efficacy * (A - B)) / cFast p = 0 := by linarith
    rw [div_eq_zero_iff] at h0
    rcases h0 with h0 | h0
    · rw [← hAB] at h0
      rw [eq_div_iff h.lam.ne']
      linarith
    · exact absurd h0 hcf.ne'
  exact ⟨hA ▸ lf, by rw [← hA, hAB]; exact ls⟩

/-- C30 for what the model reports: in year `n` of a constant forcing (no volcanoes) the reported global
temperature rises from year to year, stays between zero and forcing/feedback and converges to it, whatever the ocean
fractions; the reported heat uptake converges to zero. -/
theorem C30_reported {p : TwoLayer.Pams ℝ} (h : Stable p) {F : ℝ} (hF : 0 ≤ F) {m : ℕ}
    (hN : 0 ≤ p.foan ∧ p.foan ≤ 1) (hS : 0 ≤ p.foas ∧ p.foas ≤ 1) :
    let out := fun n => (energyBudget p (constRun p F n) F F (List.replicate m 0) (List.replicate m 0)).2
    (∀ n, 0 ≤ (out n).dtemp ∧ (out n).dtemp ≤ (out (n + 1)).dtemp ∧ (out n).dtemp ≤ F / p.lambda ∧
      (out n).dtemp_sea ≤ (out n).dtemp) ∧
    Tendsto (fun n => (out n).dtemp) atTop (𝓝 (F / p.lambda)) ∧
    Tendsto (fun n => (out n).RIB) atTop (𝓝 0) := by
  intro out
  have hf : forcing F F (List.replicate m (0 : ℝ)) (List.replicate m 0) = F := by
    simp only [forcing, List.zipWith_replicate, min_self, add_zero]
    simp [mean, fsum_eq_sum]
    norm_num
  have ho : ∀ n, out n = output p (constRun p F (n + 1)) F := by
    intro n
    simp only [out, energyBudget, hf]
    rfl
  have hl : ∀ n, (constRun p F n).lambda_eff = p.lambda := constRun_lambda p F
  set f : ℝ := (p.foan + p.foas) / 2 with hfdef
  have f0 : 0 ≤ f := by rw [hfdef]; linarith [hN.1, hS.1]
  have f1 : f ≤ 1 := by rw [hfdef]; linarith [hN.2, hS.2]
  have hd : ∀ n, (out n).dtemp = F / p.lambda * (1 - f) + (constRun p F (n + 1)).temp_fast * f := by
    intro n
    rw [ho]
    simp only [output, hl, hfdef]
    norm_num
    ring
  have hsea : ∀ n, (out n).dtemp_sea = (constRun p F (n + 1)).temp_fast := by intro n; rw [ho]; rfl
  have hr : ∀ n, (out n).RIB = F - p.lambda * (constRun p F (n + 1)).temp_fast
      - (p.ocean_efficacy - 1) * p.k * ((constRun p F (n + 1)).temp_fast - (constRun p F (n + 1)).temp_slow) := by
    intro n
    rw [ho]
    simp only [output, hl]
    norm_num
  have hq : 0 ≤ F / p.lambda := div_nonneg hF h.lam.le
  obtain ⟨e1, e2⟩ := C30_equilibrium h hF
  have e1' := e1.comp (tendsto_add_atTop_nat 1)
  have e2' := e2.comp (tendsto_add_atTop_nat 1)
  refine ⟨?_, ?_, ?_⟩
  · intro n
    obtain ⟨a1, a2, a3, a4, a5⟩ := C30_monotone_bounded h hF (n + 1)
    rw [hd, hd, hsea]
    have t0 : 0 ≤ (constRun p F (n + 1)).temp_fast := le_trans a3 a4
    refine ⟨?_, ?_, ?_, ?_⟩
    · have : 0 ≤ 1 - f := by linarith
      positivity
    · have := mul_le_mul_of_nonneg_right a1 f0
      linarith
    · have := mul_le_mul_of_nonneg_right a5 f0
      linarith
    · have := mul_le_mul_of_nonneg_right a5 (by linarith : (0 : ℝ) ≤ 1 - f)
      linarith
  · have : (fun n => (out n).dtemp) = fun n => F / p.lambda * (1 - f) + (constRun p F (n + 1)).temp_fast * f :=
      funext hd
    rw [this]
    have t := (tendsto_const_nhds (x := F / p.lambda * (1 - f))).add (e1'.mul_const f)
    rw [show F / p.lambda * (1 - f) + F / p.lambda * f = F / p.lambda by ring] at t
    exact t
  · have : (fun n => (out n).RIB) = _ := funext hr
    rw [this]
    have t := ((tendsto_const_nhds (x := F)).sub (e1'.const_mul p.lambda)).sub
      ((e1'.sub e2').const_mul ((p.ocean_efficacy - 1) * p.k))
    rw [show F - p.lambda * (F / p.lambda) - (p.ocean_efficacy - 1) * p.k * (F / p.lambda - F / p.lambda) = 0 by
      rw [mul_div_cancel₀ _ h.lam.ne']; ring] at t
    exact t

example : Stable (TwoLayer.Pams.default : TwoLayer.Pams ℝ) ∧
    0 ≤ (TwoLayer.Pams.default : TwoLayer.Pams ℝ).foan ∧ (TwoLayer.Pams.default : TwoLayer.Pams ℝ).foan ≤ 1 ∧
    0 ≤ (TwoLayer.Pams.default : TwoLayer.Pams ℝ).foas ∧ (TwoLayer.Pams.default : TwoLayer.Pams ℝ).foas ≤ 1 :=
  ⟨C30_default_stable, by norm_num [Pams.default], by norm_num [Pams.default], by norm_num [Pams.default],
    by norm_num [Pams.default]⟩

/-- A year without any forcing. -/
def NoForcing (y : Year ℝ) : Prop :=
  y.nh = 0 ∧ y.sh = 0 ∧ ∃ n, n ≠ 0 ∧ y.vn = List.replicate n 0 ∧ y.vs = List.replicate n 0

/-- C30: with zero forcing in every year the model stays exactly at rest, whatever the feedback
updates. (The last four hypotheses only exclude divisions by zero.) -/
theorem C30_rest (p : TwoLayer.Pams ℝ) (ys : List (Year ℝ)) (hz : ∀ y ∈ ys, NoForcing y)
    (_hm : p.mixed ≠ 0) (_hd : p.deep ≠ 0) (_hl : p.lambda ≠ 0)
    (_hw : ∀ y ∈ ys, ∀ w, y.w_aero = some w → p.lambda + w * p.delta_lambda_aero ≠ 0) :
    (run p (init p) ys).1.temp_fast = 0 ∧ (run p (init p) ys).1.temp_slow = 0 ∧
    ∀ o ∈ (run p (init p) ys).2, o.dtemp = 0 ∧ o.RIB = 0 ∧ o.OHCTOT = 0 ∧ o.OHC700 = 0 := by
  have e0 : (0.0 : ℝ) = 0 := by norm_num
  have hz' : ∀ y ∈ ys, forcing y.nh y.sh y.vn y.vs = 0 := by
    intro y hy
    obtain ⟨h1, h2, n, _, h3, h4⟩ := hz y hy
    rw [h1, h2, h3, h4]
    simp [forcing, mean, fsum_eq_sum]
  have key : ∀ (ys : List (Year ℝ)) (st : TwoLayer.State ℝ), (∀ y ∈ ys, forcing y.nh y.sh y.vn y.vs = 0) →
      st.temp_fast = 0 → st.temp_slow = 0 →
      (run p st ys).1.temp_fast = 0 ∧ (run p st ys).1.temp_slow = 0 ∧
      ∀ o ∈ (run p st ys).2, o.dtemp = 0 ∧ o.RIB = 0 ∧ o.OHCTOT = 0 ∧ o.OHC700 = 0 := by
    intro ys
    induction ys with
    | nil => intro st _ h1 h2; exact ⟨h1, h2, by simp [run]⟩
    | cons y ys ih =>
      intro st hz h1 h2
      simp only [run, energyBudget]
      rw [hz y (by simp)]
      set s1 : TwoLayer.State ℝ := startYear p st y.w_aero with hs1
      have ht : s1.temp_fast = 0 ∧ s1.temp_slow = 0 := by
        rw [hs1]; cases y.w_aero <;> exact ⟨h1, h2⟩
      have hf : (step p s1 0).temp_fast = 0 := by simp [step, ht.1, ht.2]
      have hs : (step p s1 0).temp_slow = 0 := by simp [step, ht.1, ht.2]
      obtain ⟨i1, i2, i3⟩ := ih (step p s1 0) (fun y hy => hz y (by simp [hy])) hf hs
      refine ⟨i1, i2, ?_⟩
      intro o ho
      rcases List.mem_cons.1 ho with rfl | ho
      · simp [output, hf, hs]
      · exact i3 o ho
  exact key ys (init p) hz' (by simp [init, e0]) (by simp [init, e0])

example : NoForcing ⟨some 0.3, 0, 0, List.replicate 12 0, List.replicate 12 0⟩ ∧
    (Pams.default : TwoLayer.Pams ℝ).lambda + 0.3 * (Pams.default : TwoLayer.Pams ℝ).delta_lambda_aero ≠ 0 :=
  ⟨⟨rfl, rfl, 12, by norm_num, rfl, rfl⟩, by norm_num [Pams.default]⟩

/-- `n` years of the forcing history `f` from rest, the feedback in year `m` being `lam m`. -/
noncomputable def forcedRun (p : TwoLayer.Pams ℝ) (lam f : ℕ → ℝ) : ℕ → TwoLayer.State ℝ
  | 0 => init p
  | n + 1 => step p { forcedRun p lam f n with lambda_eff := lam n } (f n)

/-- C30: the response is linear in the forcing history (for the same feedback history). -/
theorem C30_linear (p : TwoLayer.Pams ℝ) (_hm : p.mixed ≠ 0) (_hd : p.deep ≠ 0)
    (a b : ℝ) (F G lam : ℕ → ℝ) (n : ℕ) :
    (forcedRun p lam (fun m => a * F m + b * G m) n).temp_fast
      = a * (forcedRun p lam F n).temp_fast + b * (forcedRun p lam G n).temp_fast ∧
    (forcedRun p lam (fun m => a * F m + b * G m) n).temp_slow
      = a * (forcedRun p lam F n).temp_slow + b * (forcedRun p lam G n).temp_slow := by
  induction n with
  | zero => simp only [forcedRun, init]; norm_num
  | succ n ih =>
    obtain ⟨h1, h2⟩ := ih
    simp only [forcedRun, step]
    rw [h1, h2]
    constructor <;> ring

/-! ## C31: volcanic forcing in the two-layer model -/

theorem mean_const (v : ℝ) {n : ℕ} (hn : n ≠ 0) : mean (List.replicate n v) = v := by
  have : (n : ℝ) ≠ 0 := by exact_mod_cast hn
  simp only [mean, fsum_eq_sum, List.sum_replicate, List.length_replicate, mofInt, nsmul_eq_mul,
    Int.cast_natCast]
  field_simp

/-- What the code does: a volcanic forcing `v` in all months of both hemispheres acts like an
ordinary forcing of `2 v`. -/
theorem C31_twolayer_doubles_volcanic_partial (p : TwoLayer.Pams ℝ) (st : TwoLayer.State ℝ) (f v : ℝ) {n : ℕ}
    (hn : n ≠ 0) :
    energyBudget p st f f (List.replicate n v) (List.replicate n v) =
      energyBudget p st (f + 2 * v) (f + 2 * v) (List.replicate n 0) (List.replicate n 0) := by
  have h : forcing f f (List.replicate n v) (List.replicate n v)
      = forcing (f + 2 * v) (f + 2 * v) (List.replicate n 0) (List.replicate n 0) := by
    simp only [forcing, List.zipWith_replicate, min_self, mean_const _ hn]
    norm_num; ring
  simp only [energyBudget, h]

/-- C31 fails for the two-layer model: the default model warms twice as much in the first year from
a volcanic forcing of 1 W/m2 as from an ordinary forcing of 1 W/m2. -/
theorem C31_twolayer_false : ∃ (p : TwoLayer.Pams ℝ) (v : ℝ) (n : ℕ), n ≠ 0 ∧ Stable p ∧
    (energyBudget p (init p) 0 0 (List.replicate n v) (List.replicate n v)).2.dtemp ≠
      (energyBudget p (init p) v v (List.replicate n 0) (List.replicate n 0)).2.dtemp := by
  refine ⟨TwoLayer.Pams.default, 1, 12, by norm_num, C30_default_stable, ?_⟩
  rw [C31_twolayer_doubles_volcanic_partial _ _ _ _ (by norm_num)]
  have h0 : ∀ f : ℝ, forcing f f (List.replicate 12 (0 : ℝ)) (List.replicate 12 0) = f := by
    intro f
    simp only [forcing, List.zipWith_replicate, min_self, mean_const _ (show (12 : ℕ) ≠ 0 by norm_num)]
    norm_num
  simp only [energyBudget, h0]
  simp only [output, step, init, TwoLayer.Pams.default, cFast, secYear]
  norm_num

/-! ## C32: upper-ocean heat content -/

/-- Heat content of the top `z` metres (1e22 J) for uniform layer temperatures: what "heat content
down to 700 m" means for a two-layer ocean. -/
noncomputable def heatAbove (p : TwoLayer.Pams ℝ) (z Tf Ts : ℝ) : ℝ :=
  (min z p.mixed * Tf + min (max (z - p.mixed) 0) p.deep * Ts) * 1000 * 4184 * 3.61e14 / 1e22

/-- C32: the reported 700 m heat content is exactly the heat of the top 700 m. -/
theorem C32_ohc700 (p : TwoLayer.Pams ℝ) (hm : 0 < p.mixed) (hd : 0 < p.deep) (st : TwoLayer.State ℝ)
    (nh sh : ℝ) (vn vs : List ℝ) :
    let o := (energyBudget p st nh sh vn vs).2
    o.OHC700 = heatAbove p 700 o.dtemp_fast o.dtemp_slow := by
  simp only [energyBudget, output, heatAbove]
  set s := step p st (forcing nh sh vn vs)
  by_cases h : p.mixed < 700
  · rw [if_pos (by norm_num; exact h), min_eq_right h.le, max_eq_left (by linarith)]
    by_cases h2 : 700 - p.mixed < p.deep
    · rw [if_neg (by norm_num; rw [div_le_one hd]; exact h2.le), min_eq_left h2.le]
      simp only [cFast_eq, cSlow_eq, secYear, TwoLayer.OCEAN_AREA]
      norm_num
      field_simp
      ring
    · have hmin : min (700 - p.mixed) p.deep = p.deep := min_eq_right (by linarith)
      rw [hmin]
      have hfrac : (if (1.0 : ℝ) < (700.0 - p.mixed) / p.deep then (1.0 : ℝ) else (700.0 - p.mixed) / p.deep) = 1 := by
        norm_num
        intro hle
        rw [div_le_one hd] at hle
        rw [div_eq_one_iff_eq hd.ne']
        linarith
      rw [hfrac]
      simp only [cFast_eq, cSlow_eq, secYear, TwoLayer.OCEAN_AREA]
      norm_num
      field_simp
      ring
  · rw [if_neg (by norm_num; linarith), min_eq_left (by linarith), max_eq_right (by linarith),
      min_eq_left hd.le]
    simp only [cFast_eq, secYear, TwoLayer.OCEAN_AREA]
    norm_num
    field_simp
    ring

/-- C32: for layers together no deeper than 700 m it equals the total. -/
theorem C32_shallow (p : TwoLayer.Pams ℝ) (hm : 0 < p.mixed) (hd : 0 < p.deep) (hle : p.mixed + p.deep ≤ 700)
    (st : TwoLayer.State ℝ) (nh sh : ℝ) (vn vs : List ℝ) :
    let o := (energyBudget p st nh sh vn vs).2
    o.OHC700 = o.OHCTOT := by
  intro o
  rw [(C29_reported_heat p st nh sh vn vs).1]
  have := C32_ohc700 p hm hd st nh sh vn vs
  simp only at this
  change o.OHC700 = _ at this
  rw [this]
  unfold heatAbove heatContent
  rw [min_eq_right (by linarith : p.mixed ≤ 700), max_eq_left (by linarith), min_eq_right (by linarith)]

/-- C32: it never exceeds the total when no layer is colder than pre-industrial, and is
non-negative. -/
theorem C32_bounds (p : TwoLayer.Pams ℝ) (hm : 0 < p.mixed) (hd : 0 < p.deep)
    (st : TwoLayer.State ℝ) (nh sh : ℝ) (vn vs : List ℝ) :
    let o := (energyBudget p st nh sh vn vs).2
    0 ≤ o.dtemp_fast → 0 ≤ o.dtemp_slow → 0 ≤ o.OHC700 ∧ o.OHC700 ≤ o.OHCTOT := by
  intro o h1 h2
  have e1 : o.OHC700 = heatAbove p 700 o.dtemp_fast o.dtemp_slow := C32_ohc700 p hm hd st nh sh vn vs
  have e2 : o.OHCTOT = heatContent p o.dtemp_fast o.dtemp_slow := (C29_reported_heat p st nh sh vn vs).1
  rw [e1, e2]
  unfold heatAbove heatContent
  have a1 : 0 ≤ min 700 p.mixed := le_min (by norm_num) hm.le
  have a2 : 0 ≤ min (max (700 - p.mixed) 0) p.deep := le_min (le_max_right _ _) hd.le
  have a3 : min 700 p.mixed ≤ p.mixed := min_le_right _ _
  have a4 : min (max (700 - p.mixed) 0) p.deep ≤ p.deep := min_le_right _ _
  have b1 := mul_le_mul_of_nonneg_right a3 h1
  have b2 := mul_le_mul_of_nonneg_right a4 h2
  have c1 := mul_nonneg a1 h1
  have c2 := mul_nonneg a2 h2
  constructor
  · positivity
  · have : (min 700 p.mixed * o.dtemp_fast + min (max (700 - p.mixed) 0) p.deep * o.dtemp_slow)
      ≤ p.mixed * o.dtemp_fast + p.deep * o.dtemp_slow := by linarith
    have h3 : (0 : ℝ) ≤ 1000 * 4184 * 3.61e14 / 1e22 := by norm_num
    calc _ = (min 700 p.mixed * o.dtemp_fast + min (max (700 - p.mixed) 0) p.deep * o.dtemp_slow)
            * (1000 * 4184 * 3.61e14 / 1e22) := by ring
      _ ≤ (p.mixed * o.dtemp_fast + p.deep * o.dtemp_slow) * (1000 * 4184 * 3.61e14 / 1e22) :=
          mul_le_mul_of_nonneg_right this h3
      _ = _ := by ring

end Verif.Props
