import Verif.Props.C33_C34

/-!
# C76: reported temperatures and radiative imbalance of the diffusion model

Statements about the last year of an arbitrary history, as in C33 and C34.
-/

namespace Verif.Props.C76
open Verif.Py Verif.Model.UDM Verif.Spec.Tridiag Verif.Spec.Diffusion Verif.Lemmas Verif.Lemmas.UDM
  Verif.Lemmas.Tridiag Verif.Props.C35 Verif.Props.C33_C34
open Finset (range)

/-- The mean of a list. -/
noncomputable def average (xs : List ℝ) : ℝ := xs.sum / xs.length

theorem mean_eq (xs : List ℝ) : mean xs = average xs := by
  unfold mean average
  rw [mofInt, fsum_eq_sum]
  norm_cast

/-- The rest of what a year reports. -/
theorem energyBudget_rest {solve : Solver ℝ} {m : Model ℝ} {fn fs : ℝ} {vn vs : List ℝ} {o : Out ℝ} {m' : Model ℝ}
    (h : energyBudget solve m fn fs vn vs = .ok (o, m')) :
    o.dtemp = (o.dtempnh + o.dtempsh) / 2 ∧ o.dtemp_air = (o.dtempnh_air + o.dtempsh_air) / 2 ∧
    o.dtemp_sea = (o.dtempnh_sea + o.dtempsh_sea) / 2 ∧ o.RIB = (o.RIBN + o.RIBS) / 2 ∧
    o.RIBN = fn + average vn - m'.rlamda * o.dtempnh - o.anomalous_radiation ∧
    o.RIBS = fs + average vs - m'.rlamda * o.dtempsh - o.anomalous_radiation ∧
    o.anomalous_radiation = anomalousRadiation m' m.tn m.ts ∧ o.tn = m'.tn ∧ o.ts = m'.ts := by
  unfold energyBudget at h
  simp only [bind_eq_ok, pure_ok, Except.ok.injEq, Prod.mk.injEq] at h
  obtain ⟨r, -, ohc, -, rfl, rfl⟩ := h
  simp only [mean_eq]
  refine ⟨?_, ?_, ?_, ?_, ?_⟩ <;> norm_num

theorem subSteps_blend {solve : Solver ℝ} (hs : Exact solve) {m : Model ℝ} (hr : Ready m) {fn fs : ℝ} {vn vs : List ℝ}
    {r : Model ℝ × Acc ℝ} (h : subSteps solve m fn fs vn vs = .ok r) :
    r.2.tempn = m.p.foan * r.2.tempn_sea + (1 - m.p.foan) * r.2.tempn_air ∧
    r.2.temps = m.p.foas * r.2.temps_sea + (1 - m.p.foas) * r.2.temps_air := by
  unfold subSteps at h
  have := foldlM_range_inv (fun _ s => SameYear m s.1 ∧
    s.2.tempn = m.p.foan * s.2.tempn_sea + (1 - m.p.foan) * s.2.tempn_air ∧
    s.2.temps = m.p.foas * s.2.temps_sea + (1 - m.p.foas) * s.2.temps_air)
    ⟨SameYear.refl hr, by simp [Acc.zero, sci0], by simp [Acc.zero, sci0]⟩ ?_ h
  · exact this.2
  intro k _ b b' hb hk
  obtain ⟨hb, h1, h2⟩ := hb
  refine ⟨hb.trans (SameYear.subStep hs hb.ready hk), ?_⟩
  obtain ⟨tn, ts, m1, hm1, -, -, -, -, e⟩ := subStep_spec hs hb.ready hk
  have ep : m1.p = m.p := by
    rw [hm1, (refresh_spec hb.ready b.2.temp1n b.2.temp1s).2.2.1]; exact hb.p
  rw [e]
  unfold accumulate
  simp only [ep, sci1, h1, h2]
  constructor <;> ring

/-- **C76.** Every reported global temperature is the mean of the two hemispheres' and every hemisphere's surface
temperature is the mean of sea and air surface temperature weighted with the hemisphere's ocean fraction. -/
theorem C76_temperatures {solve : Solver ℝ} (hs : Exact solve) {p : Pams ℝ} {m0 : Model ℝ}
    (hc : create p = .ok m0) {ys : List (Year ℝ)} {outs : List (Out ℝ)} {m : Model ℝ}
    (hrun : run solve m0 ys = .ok (outs, m)) : ∀ o ∈ outs,
    o.dtemp = (o.dtempnh + o.dtempsh) / 2 ∧ o.dtemp_air = (o.dtempnh_air + o.dtempsh_air) / 2 ∧
    o.dtemp_sea = (o.dtempnh_sea + o.dtempsh_sea) / 2 ∧
    o.dtempnh = p.foan * o.dtempnh_sea + (1 - p.foan) * o.dtempnh_air ∧
    o.dtempsh = p.foas * o.dtempsh_sea + (1 - p.foas) * o.dtempsh_air := by
  rw [create_ok hc] at hrun
  induction ys using List.reverseRecOn generalizing outs m with
  | nil => obtain ⟨rfl, _⟩ := run_nil.1 hrun; simp
  | append_singleton ys y ih =>
    obtain ⟨os, m1, o, h1, h2, rfl⟩ := run_snoc.1 hrun
    intro x hx
    rcases List.mem_append.1 hx with hx | hx
    · exact ih h1 x hx
    obtain rfl := List.mem_singleton.1 hx
    have a := run_after hs h1
    obtain ⟨r, h7, ht7, e1, e2, e3, q1, q2, q8, q9, q3, q4, q5, q6, _, q7⟩ := energyBudget_ok h2
    obtain ⟨b1, b2⟩ := subSteps_blend hs (setFeedback_ready a.ready y.w_aero) e1
    rw [(setFeedback_fields m1 y.w_aero).1, a.pams] at b1 b2
    obtain ⟨c1, c2, c3, -⟩ := energyBudget_rest h2
    exact ⟨c1, c2, c3, by rw [q8, q5, q3, b1], by rw [q9, q6, q4, b2]⟩

/-- The heat (W/m² over the year) that went into the layers below the mixed layer in a year, from the reported
temperature profiles at the end of the year and of the year before. -/
noncomputable def deepUptake (p : Pams ℝ) (old new : ℕ → ℝ) (old' new' : ℕ → ℝ) : ℝ :=
  (∑ i ∈ range (p.lm - 1), 4184 * 1000 * thickness p (i + 1)
    * ((new (i + 1) - old (i + 1)) * p.foan + (new' (i + 1) - old' (i + 1)) * p.foas)) / year

/-- **C76.** In every year of every history the reported imbalance of a hemisphere is this year's forcing, ordinary
plus mean volcanic, minus the feedback times the hemisphere's surface temperature minus the anomalous radiation; the
global imbalance is the mean of the hemispheres'. The anomalous radiation is the ocean efficacy's excess over one
times the heat that went below the mixed layer. -/
theorem C76_imbalance {solve : Solver ℝ} (hs : Exact solve) {p : Pams ℝ} {m0 : Model ℝ}
    (hc : create p = .ok m0) {ys : List (Year ℝ)} {y : Year ℝ} {outs : List (Out ℝ)} {o : Out ℝ} {m : Model ℝ}
    (hrun : run solve m0 (ys ++ [y]) = .ok (outs ++ [o], m)) :
    o.RIB = (o.RIBN + o.RIBS) / 2 ∧
    o.RIBN = y.fn + average y.vn - feedback p y.w_aero * o.dtempnh - o.anomalous_radiation ∧
    o.RIBS = y.fs + average y.vs - feedback p y.w_aero * o.dtempsh - o.anomalous_radiation ∧
    o.anomalous_radiation = (p.ocean_efficacy - 1) *
      deepUptake p ((outs.getLast?.map Out.tn).getD (fun _ => 0)) o.tn
        ((outs.getLast?.map Out.ts).getD (fun _ => 0)) o.ts := by
  rw [create_ok hc] at hrun
  obtain ⟨os, m1, o', h1, h2, h3⟩ := run_snoc.1 hrun
  obtain ⟨rfl, h4⟩ := List.append_inj' h3 rfl
  obtain rfl := (List.cons.inj h4).1
  have a := run_after hs h1
  obtain ⟨r, h7, ht7, e1, e2, -⟩ := energyBudget_ok h2
  have sy := subSteps_same hs (setFeedback_ready a.ready y.w_aero) e1
  obtain ⟨-, -, -, c1, c2, c3, c4, c5, c6⟩ := energyBudget_rest h2
  have hl : m.rlamda = feedback p y.w_aero := by
    rw [e2, ← a.feedback y.w_aero]; exact sy.rlamda
  have hpm : m.p = p := by
    rw [e2]; exact sy.p.trans ((setFeedback_fields m1 y.w_aero).1.trans a.pams)
  rw [hl] at c2 c3
  refine ⟨c1, c2, c3, ?_⟩
  rw [c4, c5, c6, (setFeedback_fields m1 y.w_aero).2.1, (setFeedback_fields m1 y.w_aero).2.2.1, a.tn, a.ts]
  have hd : ∀ i, dz p i = thickness p i := fun i => by unfold dz thickness; norm_num
  unfold anomalousRadiation deepUptake year
  simp only [hpm, fsum_eq_sum, hd, sum_map_range]
  norm_num

/-- **C76.** The imbalance and the heat flux into the ocean (`uptake`, both hemispheres together): the imbalance is
larger by the feedback over the exchange coefficient and by how much this year's forcing exceeds the forcing applied
in the year's sub-steps. -/
theorem C76_relation {solve : Solver ℝ} (hs : Exact solve) {p : Pams ℝ} (hp : Physical p) {m0 : Model ℝ}
    (hc : create p = .ok m0) {ys : List (Year ℝ)} {y : Year ℝ} {outs : List (Out ℝ)} {o : Out ℝ} {m : Model ℝ}
    (hrun : run solve m0 (ys ++ [y]) = .ok (outs ++ [o], m)) (hf : 0 < feedback p y.w_aero) :
    o.RIB = (1 + feedback p y.w_aero / p.rlamdo) * (uptake p o / 2)
      + ((y.fn + average y.vn - meanForcing p.ldtime.toNat (before ys Year.fn) y.fn y.vn.length y.vn)
        + (y.fs + average y.vs - meanForcing p.ldtime.toNat (before ys Year.fs) y.fs y.vn.length y.vs)) / 2
      - o.anomalous_radiation := by
  obtain ⟨h1, h2, h3, -⟩ := C76_imbalance hs hc hrun
  obtain ⟨-, -, -, h4, h5⟩ := C76_temperatures hs hc hrun o (by simp)
  have h6 := C34_global_balance hs hp hc hrun hf
  have hr := hp.exchange.ne'
  have e : o.dtempnh + o.dtempsh = o.dtempnh_air + o.dtempsh_air - uptake p o / p.rlamdo := by
    rw [h4, h5]; unfold uptake; field_simp; ring
  rw [h1, h2, h3]
  linear_combination (-(feedback p y.w_aero) / 2) * e - h6 / 2

/-- The yearly heat uptake (ZJ) a results request gives for an imbalance. -/
noncomputable def uptakeZJ (rib : ℝ) : ℝ := rib * 3.61e14 * (86400 * 365) / 1e21

/-- The share of the heat content's increase that the reported uptake shows under constant forcing: the imbalance is
taken over the ocean area instead of the globe, heat content and temperature equations use different capacities, and
the feedback acts on the surface temperature instead of the air temperature. -/
noncomputable def share (p : Pams ℝ) (w : ℝ) : ℝ :=
  3.61 / 5.1 * (capacity / (1030 * 3997)) * (1 + feedback p w / p.rlamdo)

/-- **C76** (partial: the share is not one). If the forcing of the year is that of the year before and volcanic
forcing has one value per sub-step, the reported heat uptake is a constant share of the increase of the reported heat
content. -/
theorem C76_heat_uptake_partial {solve : Solver ℝ} (hs : Exact solve) {p : Pams ℝ} (hp : Physical p)
    (he : p.ocean_efficacy = 1) (hb : p.ebbeta = 0) {m0 : Model ℝ} (hc : create p = .ok m0)
    {ys : List (Year ℝ)} {y : Year ℝ} {outs : List (Out ℝ)} {o : Out ℝ} {m : Model ℝ}
    (hrun : run solve m0 (ys ++ [y]) = .ok (outs ++ [o], m)) (hf : 0 < feedback p y.w_aero)
    (hn : before ys Year.fn = y.fn) (hs' : before ys Year.fs = y.fs)
    (hvn : (y.vn.length : ℤ) = p.ldtime) (hvs : (y.vs.length : ℤ) = p.ldtime) :
    uptakeZJ o.RIB = share p y.w_aero * ((o.OHCTOT - before outs Out.OHCTOT) * 10) := by
  have h1 := C76_relation hs hp hc hrun hf
  have h2 := (C76_imbalance hs hc hrun).2.2.2
  have h3 := C33_heat_budget hs hp he hb hc hrun hf
  have hl : p.ldtime.toNat ≠ 0 := by have := hp.steps; omega
  have ln : y.vn.length = p.ldtime.toNat := by omega
  have ls : y.vs.length = p.ldtime.toNat := by omega
  have hN : ((p.ldtime.toNat : ℕ) : ℝ) ≠ 0 := by exact_mod_cast hl
  rw [ln, C34_mean_forcing _ hl _ _ _ ln, C34_mean_forcing _ hl _ _ _ ls, hn, hs'] at h1
  rw [he, sub_self, zero_mul] at h2
  unfold average at h1
  rw [ln, ls, h2] at h1
  have h4 : o.RIB = (1 + feedback p y.w_aero / p.rlamdo) * (uptake p o / 2) := by
    rw [h1]; field_simp; ring
  have hU : ohcUnit ≠ 0 := by unfold ohcUnit; norm_num
  have h5 : uptake p o = capacity * ((o.OHCTOT - before outs Out.OHCTOT) / ohcUnit) / year := by
    rw [h3]; unfold year; norm_num
  rw [h4, h5]
  unfold uptakeZJ share year ohcUnit
  generalize o.OHCTOT - before outs Out.OHCTOT = d
  generalize feedback p y.w_aero / p.rlamdo = x
  generalize capacity = c
  norm_num
  ring

/-- **C76** The claim that the reported heat uptake is the increase of the reported heat content is false: a first
year of forcing with the default parameters. -/
theorem C76_heat_uptake_false : ∃ p : Pams ℝ, Physical p ∧ Ordered p p.W ∧ p.ocean_efficacy = 1 ∧ p.ebbeta = 0 ∧
    ∃ solve, Exact solve ∧ ∃ y o m, 0 < feedback p y.w_aero ∧ run solve (init p) [y] = .ok ([o], m) ∧
    uptakeZJ o.RIB ≠ (o.OHCTOT - 0) * 10 := by
  obtain ⟨outs, m, h, hl⟩ := C35_run_succeeds exactSolver_exact flat_physical rfl flat_ordered flat_deep flat_created
    [warmYear] (fun y hy => by rw [List.mem_singleton.1 hy]; constructor <;> simp [warmYear])
    (fun y _ => flat_feedback _)
  obtain ⟨o, rfl⟩ := List.length_eq_one_iff.1 hl
  refine ⟨flatPams, flat_physical, flat_ordered, rfl, rfl, exactSolver, exactSolver_exact, warmYear, o, m,
    flat_feedback _, h, ?_⟩
  have hw : ∀ y ∈ [warmYear], Warming y := by
    intro y hy
    rw [List.mem_singleton.1 hy]
    constructor <;> simp only [warmYear] <;> norm_num
  have W := C35_warming exactSolver_exact flat_physical rfl flat_ordered flat_gentle flat_created [warmYear] hw
    (fun y _ => flat_feedback _) h o (by simp)
  have h' : run exactSolver (init flatPams) ([] ++ [warmYear]) = .ok ([] ++ [o], m) := h
  have h1 := C76_relation exactSolver_exact flat_physical flat_created h' (flat_feedback _)
  have h2 := (C76_imbalance exactSolver_exact flat_created h').2.2.2
  have h3 := C33_heat_budget exactSolver_exact flat_physical rfl rfl flat_created h' (flat_feedback _)
  have h6 := C34_global_balance exactSolver_exact flat_physical flat_created h' (flat_feedback _)
  have b0 : ∀ f : Out ℝ → ℝ, before [] f = 0 := fun _ => rfl
  have b1 : ∀ f : Year ℝ → ℝ, before [] f = 0 := fun _ => rfl
  have hlt : flatPams.ldtime.toNat = 12 := rfl
  have ln : warmYear.vn.length = 12 := rfl
  have ls : warmYear.vs.length = 12 := rfl
  rw [show flatPams.ocean_efficacy = 1 from rfl, sub_self, zero_mul] at h2
  rw [hlt, ln, C34_mean_forcing 12 (by norm_num) _ _ _ ln, C34_mean_forcing 12 (by norm_num) _ _ _ ls, b1, b1] at h1 h6
  rw [h2] at h1
  have hfb := flat_feedback warmYear.w_aero
  have hu : 0 ≤ o.OHCTOT := W.2.2.2.2.2
  have hsum : warmYear.vn.sum = 6 ∧ warmYear.vs.sum = 6 := by
    constructor <;> simp only [warmYear, List.sum_replicate] <;> norm_num
  have hfn : warmYear.fn = 2 := rfl
  have hfs : warmYear.fs = 1 := rfl
  unfold average at h1
  rw [ln, ls, hsum.1, hsum.2, hfn, hfs] at h1
  rw [hsum.1, hsum.2, hfn, hfs] at h6
  rw [b0] at h3
  have hr : (0 : ℝ) < flatPams.rlamdo := flat_physical.exchange
  have hx : 0 < feedback flatPams warmYear.w_aero / flatPams.rlamdo := div_pos hfb hr
  have hair : 0 ≤ feedback flatPams warmYear.w_aero * (o.dtempnh_air + o.dtempsh_air) :=
    mul_nonneg hfb.le (add_nonneg W.2.1 W.2.2.1)
  generalize feedback flatPams warmYear.w_aero / flatPams.rlamdo = x at *
  generalize feedback flatPams warmYear.w_aero * (o.dtempnh_air + o.dtempsh_air) = a at *
  intro hcon
  unfold uptakeZJ at hcon
  unfold capacity ohcUnit year at h3
  have hu0 : 0 ≤ uptake flatPams o := by
    have : (0:ℝ) ≤ 365 * 86400 * uptake flatPams o := by
      rw [← h3]; positivity
    linarith
  generalize uptake flatPams o = u at *
  have hxu := mul_nonneg hx.le hu0
  norm_num at h1 h3 h6 hcon
  nlinarith

/-- The hypotheses of `C76_heat_uptake_partial` are met by the default parameters in every year but the first of
constant forcing; the share is then about 0.79. -/
example (n : ℕ) : ∃ outs o m,
    run exactSolver (init flatPams) ((List.replicate n warmYear ++ [warmYear]) ++ [warmYear]) = .ok (outs ++ [o], m) ∧
    uptakeZJ o.RIB = share flatPams 0 * ((o.OHCTOT - before outs Out.OHCTOT) * 10) ∧
    0.78 < share flatPams 0 ∧ share flatPams 0 < 0.79 := by
  obtain ⟨outs, m, h, hl⟩ := C35_run_succeeds exactSolver_exact flat_physical rfl flat_ordered
    flat_deep flat_created ((List.replicate n warmYear ++ [warmYear]) ++ [warmYear])
    (fun y hy => by
      rw [← List.replicate_succ', ← List.replicate_succ'] at hy
      rw [List.eq_of_mem_replicate hy]; constructor <;> simp [warmYear])
    (fun y _ => flat_feedback _)
  obtain ⟨os, m1, o, h1, h2, rfl⟩ := run_snoc.1 h
  refine ⟨os, o, m, h, C76_heat_uptake_partial exactSolver_exact flat_physical rfl rfl flat_created h
    (flat_feedback _) (by simp [before]) (by simp [before]) rfl rfl, ?_⟩
  unfold share feedback capacity
  simp only [flatPams]
  norm_num

end Verif.Props.C76
