import Mathlib.Algebra.BigOperators.Field
import Verif.Props.C35

/-!
# C33, C34: heat budget of the ocean and energy balance at the surface (diffusion model)

Both are statements about the last year of an arbitrary history of the model object; every year of a
run is the last year of the history up to it.
-/

namespace Verif.Props.C33_C34
open Verif.Py Verif.Model.UDM Verif.Spec.Tridiag Verif.Spec.Diffusion Verif.Lemmas Verif.Lemmas.UDM
  Verif.Lemmas.Tridiag Verif.Props.C35
open Finset (range)

/-- The determinant of the two coupled surface equations, divided by the square of the exchange
coefficient. -/
noncomputable def determinant (p : Pams ℝ) (fb : ℝ) : ℝ :=
  (p.foas + fb / p.rlamdo + p.ebbeta / p.rlamdo) * (p.foan + fb / p.rlamdo + p.ebbeta / p.rlamdo)
    - (p.ebbeta / p.rlamdo) * (p.ebbeta / p.rlamdo)

/-- The objects a history of years goes through. -/
theorem last_year {solve : Solver ℝ} (hs : Exact solve) {p : Pams ℝ} (hp : Physical p) {m0 : Model ℝ}
    (hc : create p = .ok m0) {ys : List (Year ℝ)} {y : Year ℝ} {outs : List (Out ℝ)} {o : Out ℝ}
    {m : Model ℝ} (hrun : run solve m0 (ys ++ [y]) = .ok (outs ++ [o], m))
    (hf : 0 < feedback p y.w_aero) :
    ∃ m1 r, After p ys outs m1 ∧
      subSteps solve (setFeedback m1 y.w_aero) y.fn y.fs y.vn y.vs = .ok r ∧
      Phys (setFeedback m1 y.w_aero).p (setFeedback m1 y.w_aero).rlamda ∧
      energyBudget solve (setFeedback m1 y.w_aero) y.fn y.fs y.vn y.vs = .ok (o, m) ∧
      r.1.p = p ∧ o.tn = r.1.tn ∧ o.ts = r.1.ts ∧
      o.dtempnh_air = r.2.tempn_air ∧ o.dtempsh_air = r.2.temps_air ∧
      o.dtempnh_sea = r.2.tempn_sea ∧ o.dtempsh_sea = r.2.temps_sea ∧
      o.OHCTOT = ohcUnit * heat p r.1.tn r.1.ts := by
  rw [create_ok hc] at hrun
  obtain ⟨os, m1, o', h1, h2, h3⟩ := run_snoc.1 hrun
  obtain ⟨rfl, h4⟩ := List.append_inj' h3 rfl
  obtain rfl := (List.cons.inj h4).1
  have a := run_after hs h1
  obtain ⟨r, h7, ht7, e1, e2, e3, q1, q2, _, _, q3, q4, q5, q6, _, q7⟩ := energyBudget_ok h2
  have sy := subSteps_same hs (setFeedback_ready a.ready y.w_aero) e1
  have e4 : r.1.p = p := sy.p.trans ((setFeedback_fields m1 y.w_aero).1.trans a.pams)
  refine ⟨m1, r, a, e1, a.phys hp hf, h2, e4, q1, q2, q3, q4, q5, q6, ?_⟩
  rw [q7, oceanTemperature_tot e3, e2]
  show ohcUnit * heat r.1.p r.1.tn r.1.ts = _
  rw [e4]

/-- Heat content before the last year, from the outputs. -/
theorem after_heat {solve : Solver ℝ} (hs : Exact solve) {p : Pams ℝ} {ys : List (Year ℝ)}
    {outs : List (Out ℝ)} {m1 : Model ℝ} (h : run solve (init p) ys = .ok (outs, m1)) :
    before outs Out.OHCTOT = ohcUnit * heat p m1.tn m1.ts ∧
    before outs (fun o => o.tn 0 + o.ts 0) = m1.tn 0 + m1.ts 0 := by
  have a := run_after hs h
  constructor
  · induction ys using List.reverseRecOn generalizing outs m1 with
    | nil =>
      obtain ⟨rfl, rfl⟩ := run_nil.1 h
      have z : ∀ i, (init p).tn i = 0 ∧ (init p).ts i = 0 := fun i => ⟨sci0, sci0⟩
      simp [before, heat, z]
    | append_singleton ys y _ =>
      obtain ⟨os, m2, o, h1, h2, rfl⟩ := run_snoc.1 h
      have a1 := run_after hs h1
      obtain ⟨r, h7, ht7, e1, e2, e3, q1, q2, _, _, q3, q4, q5, q6, _, q7⟩ := energyBudget_ok h2
      have : before (os ++ [o]) Out.OHCTOT = o.OHCTOT := by simp [before]
      rw [this, q7, oceanTemperature_tot e3, a.pams]
  · rw [a.tn, a.ts]
    cases e : outs.getLast? with
    | none => simp [before, e]
    | some x => simp [before, e]

/-- **C33** (any exchange between the hemispheres' air; ocean efficacy 1). In every year of every
history the ocean's heat content changes by exactly what the air gave to it, up to the lag of the
hemispheric exchange term, which is written out. -/
theorem C33_heat_budget_partial {solve : Solver ℝ} (hs : Exact solve) {p : Pams ℝ} (hp : Physical p)
    (he : p.ocean_efficacy = 1) {m0 : Model ℝ} (hc : create p = .ok m0)
    {ys : List (Year ℝ)} {y : Year ℝ} {outs : List (Out ℝ)} {o : Out ℝ} {m : Model ℝ}
    (hrun : run solve m0 (ys ++ [y]) = .ok (outs ++ [o], m)) (hf : 0 < feedback p y.w_aero) :
    capacity * ((o.OHCTOT - before outs Out.OHCTOT) / ohcUnit)
      = year * uptake p o
        + year / p.ldtime * (p.foan * p.foas * p.ebbeta / determinant p (feedback p y.w_aero))
          * (before outs (fun o => o.tn 0 + o.ts 0) - (o.tn 0 + o.ts 0)) := by
  obtain ⟨m1, r, a, e1, hph, h2, e4, q1, q2, q3, q4, q5, q6, q7⟩ := last_year hs hp hc hrun hf
  obtain ⟨f1, f2, f3, f4, f5⟩ := setFeedback_fields m1 y.w_aero
  have hr := setFeedback_ready a.ready y.w_aero
  have e := f1.trans a.pams
  have H := subSteps_heat hs hr hph (by rw [e]; exact he) e1
  have hrun' := hrun
  rw [create_ok hc] at hrun'
  obtain ⟨os, m1', o', h1', h2', h3'⟩ := run_snoc.1 hrun'
  obtain ⟨rfl, h4'⟩ := List.append_inj' h3' rfl
  have a' := run_after hs h1'
  have hT : m1'.tn = m1.tn ∧ m1'.ts = m1.ts := ⟨a'.tn.trans a.tn.symm, a'.ts.trans a.ts.symm⟩
  obtain ⟨b1, b2⟩ := after_heat hs h1'
  rw [hT.1, hT.2] at b1 b2
  have hU : ohcUnit ≠ 0 := by unfold ohcUnit; norm_num
  have hn := ldtime_ne hph
  have hD : denom (setFeedback m1 y.w_aero).p (setFeedback m1 y.w_aero).gamn
      (setFeedback m1 y.w_aero).gams = determinant p (feedback p y.w_aero) := by
    unfold denom determinant
    rw [hr.base.gamn, hr.base.gams, a.feedback, e, sci1, blm]; ring
  rw [hD, f2, f3, e, dt_eq, c1_eq] at H
  rw [e] at hn
  rw [b1, b2, q7, q1, q2]
  unfold uptake
  rw [q3, q4, q5, q6, ← mul_sub, mul_div_cancel_left₀ _ hU, H]
  field_simp

/-- **C33.** With no exchange between the hemispheres' air (the default) the heat content changes
only through the air-sea exchange: diffusion, upwelling, polar sinking and the exchange between the
hemispheres' oceans cancel exactly. -/
theorem C33_heat_budget {solve : Solver ℝ} (hs : Exact solve) {p : Pams ℝ} (hp : Physical p)
    (he : p.ocean_efficacy = 1) (hb : p.ebbeta = 0) {m0 : Model ℝ} (hc : create p = .ok m0)
    {ys : List (Year ℝ)} {y : Year ℝ} {outs : List (Out ℝ)} {o : Out ℝ} {m : Model ℝ}
    (hrun : run solve m0 (ys ++ [y]) = .ok (outs ++ [o], m)) (hf : 0 < feedback p y.w_aero) :
    capacity * ((o.OHCTOT - before outs Out.OHCTOT) / ohcUnit) = year * uptake p o := by
  rw [C33_heat_budget_partial hs hp he hc hrun hf, hb]
  simp

theorem sum_applied {m : Model ℝ} {p : Pams ℝ} (e : m.p = p) (h : 1 ≤ p.ldtime) (fn fs : ℝ)
    (vn vs : List ℝ) :
    (∑ im ∈ range p.ldtime.toNat, (applied m fn fs vn vs im).1) / p.ldtime
      = meanForcing p.ldtime.toNat m.prevFn fn vn.length vn ∧
    (∑ im ∈ range p.ldtime.toNat, (applied m fn fs vn vs im).2) / p.ldtime
      = meanForcing p.ldtime.toNat m.prevFs fs vn.length vs := by
  have h1 : ((p.ldtime.toNat : ℕ) : ℝ) = (p.ldtime : ℝ) := by
    exact_mod_cast (Int.toNat_of_nonneg (by omega : 0 ≤ p.ldtime))
  have h2 : ∀ k : ℕ, (((k : ℤ) + 1 : ℤ) : ℝ) = ((k + 1 : ℕ) : ℝ) := fun k => by push_cast; ring
  unfold meanForcing
  rw [h1]
  constructor <;>
  · congr 1
    refine Finset.sum_congr rfl fun k _ => ?_
    unfold applied rampForcing
    simp only [mofInt, sci1, e, h2]
    ring

/-- **C34.** In every year of every history the reported air temperatures of the two hemispheres
satisfy the coupled surface energy balance: feedback, loss to the ocean and loss to the other
hemisphere add up to the forcing applied. -/
theorem C34_surface_balance {solve : Solver ℝ} (hs : Exact solve) {p : Pams ℝ} (hp : Physical p)
    {m0 : Model ℝ} (hc : create p = .ok m0) {ys : List (Year ℝ)} {y : Year ℝ}
    {outs : List (Out ℝ)} {o : Out ℝ} {m : Model ℝ}
    (hrun : run solve m0 (ys ++ [y]) = .ok (outs ++ [o], m)) (hf : 0 < feedback p y.w_aero) :
    feedback p y.w_aero * o.dtempnh_air + p.foan * p.rlamdo * (o.dtempnh_air - o.dtempnh_sea)
        + p.ebbeta * (o.dtempnh_air - o.dtempsh_air)
      = meanForcing p.ldtime.toNat (before ys Year.fn) y.fn y.vn.length y.vn ∧
    feedback p y.w_aero * o.dtempsh_air + p.foas * p.rlamdo * (o.dtempsh_air - o.dtempsh_sea)
        + p.ebbeta * (o.dtempsh_air - o.dtempnh_air)
      = meanForcing p.ldtime.toNat (before ys Year.fs) y.fs y.vn.length y.vs := by
  obtain ⟨m1, r, a, e1, hph, h2, e4, q1, q2, q3, q4, q5, q6, q7⟩ := last_year hs hp hc hrun hf
  obtain ⟨f1, f2, f3, f4, f5⟩ := setFeedback_fields m1 y.w_aero
  have hr := setFeedback_ready a.ready y.w_aero
  have e := f1.trans a.pams
  have H := subSteps_balance hs hr hph e1
  obtain ⟨s1, s2⟩ := sum_applied e hp.steps y.fn y.fs y.vn y.vs
  rw [e, a.feedback, s1, s2, f4, f5, a.prevFn, a.prevFs] at H
  rw [q3, q4, q5, q6]
  exact H

/-- **C34.** Globally, ocean heat uptake is forcing minus feedback times air temperature. -/
theorem C34_global_balance {solve : Solver ℝ} (hs : Exact solve) {p : Pams ℝ} (hp : Physical p)
    {m0 : Model ℝ} (hc : create p = .ok m0) {ys : List (Year ℝ)} {y : Year ℝ}
    {outs : List (Out ℝ)} {o : Out ℝ} {m : Model ℝ}
    (hrun : run solve m0 (ys ++ [y]) = .ok (outs ++ [o], m)) (hf : 0 < feedback p y.w_aero) :
    uptake p o = meanForcing p.ldtime.toNat (before ys Year.fn) y.fn y.vn.length y.vn
      + meanForcing p.ldtime.toNat (before ys Year.fs) y.fs y.vn.length y.vs
      - feedback p y.w_aero * (o.dtempnh_air + o.dtempsh_air) := by
  obtain ⟨h1, h2⟩ := C34_surface_balance hs hp hc hrun hf
  unfold uptake
  linear_combination h1 + h2

/-- **C34.** The mean forcing applied in a year, when the volcanic series has one value per
sub-step: the ordinary forcing counts with slightly more than half of this year's value and the rest
of last year's, the volcanic forcing with its mean. -/
theorem C34_mean_forcing (n : ℕ) (hn : n ≠ 0) (old new : ℝ) (volc : List ℝ) (hv : volc.length = n) :
    meanForcing n old new n volc
      = (n + 1) / (2 * n) * new + (n - 1) / (2 * n) * old + volc.sum / n := by
  have hn' : (n : ℝ) ≠ 0 := by exact_mod_cast hn
  have h1 : ∑ k ∈ range n, (((k + 1 : ℕ) : ℝ)) = n * (n + 1) / 2 := by
    clear hv hn hn'
    induction n with
    | zero => simp
    | succ n ih => rw [Finset.sum_range_succ, ih]; push_cast; ring
  have h2 : ∑ k ∈ range n, volc.getD (k % n) 0 = volc.sum := by
    rw [← hv, ← Fin.sum_univ_getElem, Finset.sum_range]
    refine Finset.sum_congr rfl fun k _ => ?_
    rw [Nat.mod_eq_of_lt k.2, List.getD_eq_getElem?_getD, List.getElem?_eq_getElem k.2]; rfl
  unfold meanForcing
  rw [Finset.sum_add_distrib, Finset.sum_add_distrib, h2]
  have e1 : ∑ k ∈ range n, ((k + 1 : ℕ) : ℝ) / n * new = (n + 1) / 2 * new := by
    rw [← Finset.sum_mul, ← Finset.sum_div, h1]; field_simp
  have e2 : ∑ k ∈ range n, (1 - ((k + 1 : ℕ) : ℝ) / n) * old = (n - 1) / 2 * old := by
    rw [← Finset.sum_mul, Finset.sum_sub_distrib, ← Finset.sum_div, h1, Finset.sum_const,
      Finset.card_range, nsmul_eq_mul]
    field_simp
    ring
  rw [e1, e2]
  field_simp

/-- **C34.** Equilibrium: if the ocean's heat content does not change in a year, the mean air
temperature is the mean forcing times the configured sensitivity. -/
theorem C34_equilibrium {solve : Solver ℝ} (hs : Exact solve) {p : Pams ℝ} (hp : Physical p)
    (he : p.ocean_efficacy = 1) (hb : p.ebbeta = 0) (hd : p.delta_lambda_aero = 0)
    (hl : 0 < p.lambda) {m0 : Model ℝ} (hc : create p = .ok m0)
    {ys : List (Year ℝ)} {y : Year ℝ} {outs : List (Out ℝ)} {o : Out ℝ} {m : Model ℝ}
    (hrun : run solve m0 (ys ++ [y]) = .ok (outs ++ [o], m))
    (hsteady : o.OHCTOT = before outs Out.OHCTOT) :
    (o.dtempnh_air + o.dtempsh_air) / 2
      = p.lambda * ((meanForcing p.ldtime.toNat (before ys Year.fn) y.fn y.vn.length y.vn
        + meanForcing p.ldtime.toNat (before ys Year.fs) y.fs y.vn.length y.vs) / 2) := by
  have hfb : feedback p y.w_aero = 1 / p.lambda := by unfold feedback; rw [hd]; ring
  have hf : 0 < feedback p y.w_aero := by rw [hfb]; positivity
  have h1 := C33_heat_budget hs hp he hb hc hrun hf
  have h2 := C34_global_balance hs hp hc hrun hf
  rw [hsteady, sub_self, zero_div, mul_zero] at h1
  have hy : year ≠ 0 := by unfold year; norm_num
  have h3 : uptake p o = 0 := by
    rcases mul_eq_zero.1 h1.symm with h | h
    · exact absurd h hy
    · exact h
  rw [h3, hfb] at h2
  field_simp at h2 ⊢
  linarith

/-- Parameters with exchange between the hemispheres' air and one step per year. -/
noncomputable def exchangePams : Pams ℝ := { flatPams with ebbeta := 1, ldtime := 1 }

theorem exchange_physical : Physical exchangePams := by
  constructor <;> simp only [exchangePams, flatPams] <;> norm_num
theorem exchange_ordered : Ordered exchangePams exchangePams.W := by
  constructor <;> simp only [exchangePams, flatPams, year] <;> norm_num
theorem exchange_gentle : Gentle exchangePams exchangePams.W := by
  constructor <;> simp only [exchangePams, flatPams, year, capacity] <;> norm_num
theorem exchange_deep : Deep700 exchangePams := ⟨flat_deep.shallow, flat_deep.reach⟩
theorem exchange_created : create exchangePams = .ok (init exchangePams) :=
  create_of exchange_physical (by simp only [exchangePams, flatPams]; norm_num)
theorem exchange_feedback (w : ℝ) : 0 < feedback exchangePams w := by
  simp only [feedback, exchangePams, flatPams]; norm_num

theorem exchange_warms {o : Out ℝ} {m : Model ℝ}
    (h : run exactSolver (init exchangePams) [warmYear] = .ok ([o], m)) : o.tn 0 + o.ts 0 ≠ 0 := by
  intro h0
  have hw : ∀ y ∈ [warmYear], Warming y := by
    intro y hy
    rw [List.mem_singleton.1 hy]
    constructor <;> simp only [warmYear] <;> norm_num
  have W := C35_warming exactSolver_exact exchange_physical rfl exchange_ordered exchange_gentle
    exchange_created [warmYear] hw (fun y _ => exchange_feedback _) h o (by simp)
  have hz : o.tn 0 = 0 := by
    have h1 := (W.1 0).1; have h2 := (W.1 0).2; linarith
  have h' : run exactSolver (init exchangePams) ([] ++ [warmYear]) = .ok ([] ++ [o], m) := h
  obtain ⟨m1, r, a, e1, hph, h2, e4, q1, q2, _⟩ :=
    last_year exactSolver_exact exchange_physical exchange_created h' (exchange_feedback _)
  obtain ⟨f1, f2, f3, f4, f5⟩ := setFeedback_fields m1 warmYear.w_aero
  have e := f1.trans a.pams
  have hr := setFeedback_ready a.ready warmYear.w_aero
  generalize hM : setFeedback m1 warmYear.w_aero = M at *
  have hl : M.p.ldtime.toNat = 1 := by rw [e]; rfl
  unfold subSteps at e1
  rw [hl] at e1
  obtain ⟨b, k1, k2⟩ := Model.Handler.foldlM_cons_ok.1 e1
  rw [Model.Handler.foldlM_nil_ok] at k2
  subst k2
  obtain ⟨tn, ts, M1, hM1, hS1, _, _, g1, _⟩ := subStep_spec exactSolver_exact hr k1
  obtain ⟨hr1, hu, p1, p2, p3, p4, _⟩ := refresh_spec hr (Acc.zero (F := ℝ)).temp1n Acc.zero.temp1s
  rw [← hM1] at hr1 hu p1 p2 p3 p4
  have hph1 : Phys M1.p M1.rlamda := by rw [p1, p2]; exact hph
  rw [← p1, wcfac_eq, wcfac_eq] at hu
  have ht : M1.p.threstemp = 0 := by rw [p1, e]; rfl
  rw [upwelling_flat ht, upwelling_flat ht] at hu
  have ho : Ordered M1.p M1.p.W := by rw [p1, e]; exact exchange_ordered
  have D := dominant_coeff hr1.base hph1 ho true
  rw [← hu.north] at D
  have hlm : 2 ≤ M1.p.lm := hph1.lm
  have row0 := hS1 0 (by omega)
  have t0 : tn 0 = 0 := by
    rw [← hz, q1, g1]
  have tn1 : 0 ≤ tn 1 := by
    have := (W.1 1).1; rw [q1, g1] at this; exact this
  have zn : ∀ i, M1.tn i = 0 := fun i => by
    rw [p3, f2, a.tn]; rfl
  have zs : ∀ i, M1.ts i = 0 := fun i => by
    rw [p4, f3, a.ts]; rfl
  unfold row rhsNorth at row0
  rw [if_neg (by omega), if_pos (by omega), if_pos rfl, t0, zn, zs] at row0
  have c0 := (D 0 (by omega)).2.1 (by omega)
  have c0' := mul_nonpos_of_nonpos_of_nonneg c0 tn1
  have hg := gams_gt hr1.base hph1
  have hb0 := blm_nonneg hr1.base hph1
  have hD := denom_pos hr1.base hph1
  have hd := dt_pos hph1
  have hc := c1_pos
  have hm := hph1.mixed
  have d3 : 0 < M1.v.dtrm3n := by
    rw [hr1.base.dtrm3n]
    have : 0 < M1.gams := by linarith
    positivity
  have d4 : 0 ≤ M1.v.dtrm4n := by rw [hr1.base.dtrm4n]; positivity
  have v0 : (warmYear.vn.getD (0 % warmYear.vn.length) 0 : ℝ) = 0.5 := by
    simp [warmYear, List.getD_eq_getElem?_getD, List.replicate]
  have v1 : (warmYear.vs.getD (0 % warmYear.vn.length) 0 : ℝ) = 0.5 := by
    simp [warmYear, List.getD_eq_getElem?_getD, List.replicate]
  have hi : M.p.ldtime = 1 := by rw [e]; rfl
  have A1 : (applied M warmYear.fn warmYear.fs warmYear.vn warmYear.vs 0).1 = 2.5 := by
    unfold applied rampForcing
    simp only [mofInt, hi, v0, sci1]
    rw [f4, a.prevFn]
    simp [before, warmYear]; norm_num
  have A2 : (applied M warmYear.fn warmYear.fs warmYear.vn warmYear.vs 0).2 = 1.5 := by
    unfold applied rampForcing
    simp only [mofInt, hi, v1, sci1]
    rw [f5, a.prevFs]
    simp [before, warmYear]; norm_num
  rw [A1, A2] at row0
  have : 0 < M1.v.dtrm3n * 2.5 := by positivity
  have : 0 ≤ M1.v.dtrm4n * 1.5 := by positivity
  linarith

/-- **C33** is false as stated for all parameters: with exchange between the hemispheres' air
switched on, the surface equations use last step's temperature of the other hemisphere and the heat
content changes by something else than the air-sea exchange. -/
theorem C33_exchange_false : ∃ p : Pams ℝ, Physical p ∧ Ordered p p.W ∧ p.ocean_efficacy = 1 ∧
    p.threstemp = 0 ∧ ∃ solve, Exact solve ∧ ∃ y o m, 0 < feedback p y.w_aero ∧
    run solve (init p) [y] = .ok ([o], m) ∧
    capacity * ((o.OHCTOT - 0) / ohcUnit) ≠ year * uptake p o := by
  obtain ⟨outs, m, h, hl⟩ := C35_run_succeeds exactSolver_exact exchange_physical rfl exchange_ordered
    exchange_deep exchange_created [warmYear]
    (fun y hy => by rw [List.mem_singleton.1 hy]; constructor <;> simp [warmYear])
    (fun y _ => exchange_feedback _)
  obtain ⟨o, rfl⟩ := List.length_eq_one_iff.1 hl
  refine ⟨exchangePams, exchange_physical, exchange_ordered, rfl, rfl, exactSolver,
    exactSolver_exact, warmYear, o, m, exchange_feedback _, h, ?_⟩
  have hne := exchange_warms h
  have h' : run exactSolver (init exchangePams) ([] ++ [warmYear]) = .ok ([] ++ [o], m) := h
  have B := C33_heat_budget_partial exactSolver_exact exchange_physical rfl exchange_created h'
    (exchange_feedback _)
  have b0 : ∀ f : Out ℝ → ℝ, before [] f = 0 := fun _ => rfl
  rw [b0, b0] at B
  rw [B]
  intro hcon
  have hD : 0 < determinant exchangePams (feedback exchangePams warmYear.w_aero) := by
    have hfb := exchange_feedback warmYear.w_aero
    have hp := exchange_physical
    have h1 := div_pos hfb hp.exchange
    have h2 := div_nonneg hp.between hp.exchange.le
    have h3 := hp.north
    have h4 := hp.south
    unfold determinant
    nlinarith [mul_pos h3 h4, mul_pos h1 h1, mul_pos h3 h1, mul_pos h4 h1, mul_nonneg h3.le h2,
      mul_nonneg h4.le h2, mul_nonneg h1.le h2]
  have hK : 0 < year / exchangePams.ldtime * (exchangePams.foan * exchangePams.foas
      * exchangePams.ebbeta / determinant exchangePams (feedback exchangePams warmYear.w_aero)) := by
    have h3 := exchange_physical.north
    have h4 := exchange_physical.south
    have h5 : exchangePams.ebbeta = 1 := rfl
    have h6 : exchangePams.ldtime = 1 := rfl
    have h7 : 0 < year := by unfold year; norm_num
    rw [h5, h6]
    push_cast
    positivity
  have : year / exchangePams.ldtime * (exchangePams.foan * exchangePams.foas
      * exchangePams.ebbeta / determinant exchangePams (feedback exchangePams warmYear.w_aero))
      * (0 - (o.tn 0 + o.ts 0)) = 0 := by linarith
  rcases mul_eq_zero.1 this with h | h
  · exact hK.ne' h
  · exact hne (by linarith)

/-- The hypotheses are met by the default parameters and any number of years of warming. -/
example (n : ℕ) : ∃ outs o m,
    run exactSolver (init flatPams) (List.replicate n warmYear ++ [warmYear]) = .ok (outs ++ [o], m) ∧
    capacity * ((o.OHCTOT - before outs Out.OHCTOT) / ohcUnit) = year * uptake flatPams o := by
  obtain ⟨outs, m, h, hl⟩ := C35_run_succeeds exactSolver_exact flat_physical rfl flat_ordered
    flat_deep flat_created (List.replicate n warmYear ++ [warmYear])
    (fun y hy => by
      rw [← List.replicate_succ'] at hy
      rw [List.eq_of_mem_replicate hy]; constructor <;> simp [warmYear])
    (fun y _ => flat_feedback _)
  obtain ⟨os, m1, o, h1, h2, rfl⟩ := run_snoc.1 h
  exact ⟨os, o, m, h, C33_heat_budget exactSolver_exact flat_physical rfl rfl flat_created h
    (flat_feedback _)⟩

end Verif.Props.C33_C34
