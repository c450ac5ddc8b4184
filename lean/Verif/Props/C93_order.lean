import Verif.Props.C93
import Verif.Props.C91_diffusion

/-!
# C93: more forcing never gives less warming (two-layer model), and both claims for the diffusion model
-/

namespace Verif.Props
open Verif.Py Verif.Py.Dict Verif.Model Verif.Model.Handler Verif.Model.Driver Verif.Model.ThermalInst Verif.Spec
open Verif.Spec.Diffusion (Physical feedback Ordered Gentle above ohcUnit)
open Verif.Spec.Tridiag (Exact)
open Verif.Props.C35 (Warming create_of C35_warming)
open Verif.Props.C36 (Compatible combine combineOut C36_linear)
open Verif.Lemmas.UDM (sci0 sci1 sci2)

variable {κ : Type}

/-! ## The two-layer model -/

/-- The temperatures and heat contents of one year are not larger than those of another. -/
structure Cooler (o1 o2 : TwoLayer.Out ℝ) : Prop where
  dtemp : o1.dtemp ≤ o2.dtemp
  fast : o1.dtemp_fast ≤ o2.dtemp_fast
  slow : o1.dtemp_slow ≤ o2.dtemp_slow
  mixed : o1.OHC_MIXED ≤ o2.OHC_MIXED
  deep : o1.OHC_DEEP ≤ o2.OHC_DEEP
  upper : o1.OHC700 ≤ o2.OHC700
  total : o1.OHCTOT ≤ o2.OHCTOT

section
variable {q : TwoLayer.Pams ℝ} (h0 : 0 ≤ q.foan + q.foas) (h2 : q.foan + q.foas ≤ 2)
include h0 h2

omit h0 h2 in
theorem capacities {f : ℝ} (hq : SmallSteps q.mixed q.deep q.k q.ocean_efficacy f) :
    0 < TwoLayer.cFast q ∧ 0 < TwoLayer.cSlow q ∧ f + q.k * q.ocean_efficacy ≤ TwoLayer.cFast q ∧ q.k ≤ TwoLayer.cSlow q := by
  have e1 : TwoLayer.cFast q = q.mixed * 1000 * 4184 / (86400 * 365) := by
    unfold TwoLayer.cFast TwoLayer.secYear; norm_num
  have e2 : TwoLayer.cSlow q = q.deep * 1000 * 4184 / (86400 * 365) := by
    unfold TwoLayer.cSlow TwoLayer.secYear; norm_num
  rw [e1, e2]
  have := hq.mixedPos
  have := hq.deepPos
  exact ⟨by positivity, by positivity, hq.fast, hq.slow⟩

omit h0 h2 in
/-- A year started no warmer with no more forcing ends no warmer. -/
theorem step_le {s1 s2 : TwoLayer.State ℝ} {f1 f2 : ℝ}
    (hq : SmallSteps q.mixed q.deep q.k q.ocean_efficacy s2.lambda_eff) (hl : s1.lambda_eff = s2.lambda_eff)
    (hf : s1.temp_fast ≤ s2.temp_fast) (hs : s1.temp_slow ≤ s2.temp_slow) (hF : f1 ≤ f2) :
    (TwoLayer.step q s1 f1).temp_fast ≤ (TwoLayer.step q s2 f2).temp_fast ∧
    (TwoLayer.step q s1 f1).temp_slow ≤ (TwoLayer.step q s2 f2).temp_slow := by
  obtain ⟨c1, c2, c3, c4⟩ := capacities hq
  have hk := hq.exchange
  have hke : 0 ≤ q.k * q.ocean_efficacy := mul_nonneg hq.exchange hq.efficient
  simp only [TwoLayer.step, hl]
  generalize TwoLayer.cFast q = A at *
  generalize TwoLayer.cSlow q = B at *
  generalize q.k * q.ocean_efficacy = K at *
  generalize s2.lambda_eff = L at *
  constructor
  · have e : ∀ f x y : ℝ, x + (f - x * L - K * (x - y)) / A = (f + x * (A - (L + K)) + K * y) / A := by
      intro f x y; field_simp; ring
    rw [e, e]
    refine div_le_div_of_nonneg_right ?_ c1.le
    have k1 := mul_le_mul_of_nonneg_right hf (sub_nonneg.2 c3)
    have k2 := mul_le_mul_of_nonneg_left hs hke
    linarith
  · have e : ∀ x y : ℝ, y + q.k * (x - y) / B = (q.k * x + (B - q.k) * y) / B := by
      intro x y; field_simp; ring
    rw [e, e]
    refine div_le_div_of_nonneg_right ?_ c2.le
    have k1 := mul_le_mul_of_nonneg_left hf hk
    have k2 := mul_le_mul_of_nonneg_left hs (sub_nonneg.2 c4)
    linarith

theorem output_le {s1 s2 : TwoLayer.State ℝ} {f1 f2 : ℝ}
    (hq : SmallSteps q.mixed q.deep q.k q.ocean_efficacy s2.lambda_eff) (hl : s1.lambda_eff = s2.lambda_eff)
    (hf : s1.temp_fast ≤ s2.temp_fast) (hs : s1.temp_slow ≤ s2.temp_slow) (hF : f1 ≤ f2) :
    Cooler (TwoLayer.output q s1 f1) (TwoLayer.output q s2 f2) := by
  obtain ⟨c1, c2, c3, c4⟩ := capacities hq
  have hsec : (0 : ℝ) < TwoLayer.secYear := by unfold TwoLayer.secYear; norm_num
  have harea : (0 : ℝ) < TwoLayer.OCEAN_AREA := by unfold TwoLayer.OCEAN_AREA; norm_num
  have h22 : (0 : ℝ) < 1e22 := by norm_num
  have e1 : (TwoLayer.output q s1 f1).OHC_MIXED ≤ (TwoLayer.output q s2 f2).OHC_MIXED := by
    simp only [TwoLayer.output]
    generalize (1e22 : ℝ) = X at *
    gcongr
  have e2 : (TwoLayer.output q s1 f1).OHC_DEEP ≤ (TwoLayer.output q s2 f2).OHC_DEEP := by
    simp only [TwoLayer.output]
    generalize (1e22 : ℝ) = X at *
    gcongr
  have e4 : ∃ x y : ℝ, 0 ≤ x ∧ 0 ≤ y ∧ ∀ (st : TwoLayer.State ℝ) (g : ℝ), (TwoLayer.output q st g).OHC700 =
      (TwoLayer.output q st g).OHC_MIXED * x + (TwoLayer.output q st g).OHC_DEEP * y := by
    have hm := hq.mixedPos
    have hd := hq.deepPos
    by_cases h : q.mixed < 700.0
    · refine ⟨1, if 1.0 < (700.0 - q.mixed) / q.deep then 1.0 else (700.0 - q.mixed) / q.deep, by norm_num, ?_, fun st g => ?_⟩
      · split
        · norm_num
        · exact div_nonneg (by linarith) hd.le
      · simp only [TwoLayer.output, if_pos h, mul_one]
    · refine ⟨700.0 / q.mixed, 0, div_nonneg (by norm_num) hm.le, le_refl _, fun st g => ?_⟩
      simp only [TwoLayer.output, if_neg h, mul_zero, add_zero]
  obtain ⟨x, y, hx, hy, e4⟩ := e4
  have hL := hq.feedback
  refine ⟨?_, hf, hs, e1, e2, ?_, ?_⟩
  · simp only [TwoLayer.output, hl, sci1, sci2]
    have k1 : f1 / s2.lambda_eff ≤ f2 / s2.lambda_eff := div_le_div_of_nonneg_right hF hL.le
    have k2 := mul_le_mul_of_nonneg_right k1 (by linarith : 0 ≤ 1 - (q.foan + q.foas) / 2)
    have k3 := mul_le_mul_of_nonneg_right hf h0
    linarith
  · rw [e4, e4]
    have k1 := mul_le_mul_of_nonneg_right e1 hx
    have k2 := mul_le_mul_of_nonneg_right e2 hy
    linarith
  · show (TwoLayer.output q s1 f1).OHC_MIXED + (TwoLayer.output q s1 f1).OHC_DEEP ≤
      (TwoLayer.output q s2 f2).OHC_MIXED + (TwoLayer.output q s2 f2).OHC_DEEP
    linarith

/-- Histories of the two-layer model with the same feedbacks, the first with no more forcing. -/
theorem run_le : ∀ {ys1 ys2 : List (TwoLayer.Year ℝ)} {s1 s2 : TwoLayer.State ℝ},
    (∀ (n : ℕ) y1 y2, ys1[n]? = some y1 → ys2[n]? = some y2 → (∃ w w', y1.w_aero = some w' ∧ y2.w_aero = some w ∧ w' * q.delta_lambda_aero = w * q.delta_lambda_aero ∧
      SmallSteps q.mixed q.deep q.k q.ocean_efficacy (q.lambda + w * q.delta_lambda_aero)) ∧
      TwoLayer.forcing y1.nh y1.sh y1.vn y1.vs ≤ TwoLayer.forcing y2.nh y2.sh y2.vn y2.vs) →
    s1.temp_fast ≤ s2.temp_fast → s1.temp_slow ≤ s2.temp_slow → ∀ (n : ℕ) o1 o2,
    (TwoLayer.run q s1 ys1).2[n]? = some o1 → (TwoLayer.run q s2 ys2).2[n]? = some o2 → Cooler o1 o2
  | [], _, _, _, _, _, _ => by simp [TwoLayer.run]
  | _ :: _, [], _, _, _, _, _ => by simp [TwoLayer.run]
  | y1 :: ys1, y2 :: ys2, s1, s2, hm, hf, hs => by
    obtain ⟨⟨w, w', w1, w2, hw, hq⟩, hF⟩ := hm 0 y1 y2 rfl rfl
    have he : (TwoLayer.setFeedback q s1 w').lambda_eff = (TwoLayer.setFeedback q s2 w).lambda_eff := by
      simp only [TwoLayer.setFeedback, hw]
    have key := step_le (q := q) (s1 := TwoLayer.setFeedback q s1 w') (s2 := TwoLayer.setFeedback q s2 w) hq he hf hs hF
    intro n o1 o2 e1 e2
    simp only [TwoLayer.run, TwoLayer.energyBudget, w1, w2, TwoLayer.startYear] at e1 e2
    cases n with
    | zero =>
      simp only [List.getElem?_cons_zero, Option.some.injEq] at e1 e2
      subst e1 e2
      exact output_le h0 h2 (s1 := TwoLayer.step q _ _) (s2 := TwoLayer.step q _ _) hq he key.1 key.2 hF
    | succ n =>
      simp only [List.getElem?_cons_succ] at e1 e2
      exact run_le (fun n y1 y2 f1 f2 => hm (n + 1) y1 y2 f1 f2) key.1 key.2 n o1 o2 e1 e2

end

/-- In every year the inputs `f1` are not larger than the inputs `f2`, with the same aerosol weight (unless the feedback does
not depend on it), for which `ok` holds. -/
def YearsLe (d1 d2 : Driver ℝ κ) (dep : ℝ) (ok : ℝ → Prop) (f1 f2 : ℕ → YearForcing ℝ) : Prop :=
  ∀ n < (d2.nyend - d2.nystart + 1).toNat, ∀ vn1 vs1 vn2 vs2, d1.volcN[n]? = some vn1 → d1.volcS[n]? = some vs1 →
    d2.volcN[n]? = some vn2 → d2.volcS[n]? = some vs2 → ((f1 n).wAero = (f2 n).wAero ∨ dep = 0) ∧ ok (f2 n).wAero ∧
    (f1 n).fn ≤ (f2 n).fn ∧ (f1 n).fs ≤ (f2 n).fs ∧ List.Forall₂ (· ≤ ·) vn1 vn2 ∧ List.Forall₂ (· ≤ ·) vs1 vs2

/-- Two runs of any kind with the two-layer model whose years are ordered. -/
theorem order_two_layer {cops1 cops2 : CarbonOps ℝ κ} {d1 d2 d1' d2' : Driver ℝ κ} {p1 p2 : RunPams ℝ}
    {t1 t2 : TwoLayer.Pams ℝ × TwoLayer.State ℝ} (h1 : run cops1 twoLayerOps d1 p1 = .ok (d1', t1))
    (h2 : run cops2 twoLayerOps d2 p2 = .ok (d2', t2)) (hp : p1.udm = p2.udm) {q : TwoLayer.Pams ℝ}
    (hq : twoLayerPams (cutAndCheckPamset twoLayerRequired (p2.udm.getD []) []) = .ok q)
    (hf0 : 0 ≤ q.foan + q.foas) (hf2 : q.foan + q.foas ≤ 2) (hns : d1.nystart = d2.nystart) (hne : d1.nyend = d2.nyend)
    (hy : ∀ f1 f2 v1 v2, ForcedBy cops1 d1 d1' p1 f1 v1 → ForcedBy cops2 d2 d2' p2 f2 v2 → YearsLe d1 d2
      q.delta_lambda_aero (fun w => SmallSteps q.mixed q.deep q.k q.ocean_efficacy (q.lambda + w * q.delta_lambda_aero)) f1 f2) :
    ∀ o ∈ ["dT_glob", "dT_fast", "dT_slow", "OHC_MIXED", "OHC_DEEP", "OHC700", "OHCTOT"],
      ∀ n : ℕ, d2.nystart + n ≤ d2.nyend → EntryLe d1'.results d2'.results o n := by
  obtain ⟨ys1, o1, f1, a1, b1, c1, e1, g1, r1⟩ := C81_two_layer h1
  obtain ⟨ys2, o2, f2, a2, b2, c2, e2, g2, r2⟩ := C81_two_layer h2
  rw [hp, hq, Except.ok.injEq] at a1
  rw [hq, Except.ok.injEq] at a2
  rw [← a1] at b1
  rw [← a2] at b2
  have n1 : ys1.length = ys2.length := by rw [c1, c2, hns, hne]
  have m1 : o1.length = ys2.length := by rw [← n1, ← two_layer_length q (TwoLayer.init q) ys1, b1]
  have m2 : o2.length = ys2.length := by rw [← two_layer_length q (TwoLayer.init q) ys2, b2]
  have hyears : ∀ (n : ℕ) y1 y2, ys1[n]? = some y1 → ys2[n]? = some y2 → (∃ w w', y1.w_aero = some w' ∧ y2.w_aero = some w ∧ w' * q.delta_lambda_aero = w * q.delta_lambda_aero ∧
      SmallSteps q.mixed q.deep q.k q.ocean_efficacy (q.lambda + w * q.delta_lambda_aero)) ∧
      TwoLayer.forcing y1.nh y1.sh y1.vn y1.vs ≤ TwoLayer.forcing y2.nh y2.sh y2.vn y2.vs := by
    intro n y1 y2 k1 k2
    have hlt : n < ys2.length := by
      by_contra hc
      rw [List.getElem?_eq_none (by omega)] at k2
      cases k2
    obtain ⟨vn1, vs1, x1, x2, x3⟩ := e1 n (by omega)
    obtain ⟨vn2, vs2, z1, z2, z3⟩ := e2 n hlt
    obtain ⟨l0, l, l1, l2, l3, l4⟩ := hy _ _ _ _ g1 g2 n (by omega) _ _ _ _ x1 x2 z1 z2
    rw [k1, Option.some.injEq] at x3
    rw [k2, Option.some.injEq] at z3
    subst x3 z3
    exact ⟨⟨(f2 n).wAero, (f1 n).wAero, rfl, rfl, by rcases l0 with l0 | l0 <;> simp [l0], l⟩, forcing_le l1 l2 l3 l4⟩
  intro o ho n hn
  have hlt : n < ys2.length := by omega
  have K : Cooler (o1[n]'(by omega)) (o2[n]'(by omega)) := by
    refine run_le hf0 hf2 (s1 := TwoLayer.init q) (s2 := TwoLayer.init q) hyears le_rfl le_rfl n _ _ ?_ ?_
    · rw [b1]; simp [m1, hlt]
    · rw [b2]; simp [m2, hlt]
  obtain ⟨u1, u2, u3, -, u5, u6, u7, u8⟩ := r1
  obtain ⟨v1, v2, v3, -, v5, v6, v7, v8⟩ := r2
  simp only [List.mem_cons, List.not_mem_nil, or_false] at ho
  rcases ho with rfl | rfl | rfl | rfl | rfl | rfl | rfl
  · exact entry_le u1 v1 (by omega) (by omega) K.dtemp
  · exact entry_le u2 v2 (by omega) (by omega) K.fast
  · exact entry_le u3 v3 (by omega) (by omega) K.slow
  · exact entry_le u5 v5 (by omega) (by omega) K.mixed
  · exact entry_le u6 v6 (by omega) (by omega) K.deep
  · exact entry_le u7 v7 (by omega) (by omega) K.upper
  · exact entry_le u8 v8 (by omega) (by omega) K.total

/-- The years of runs with prescribed forcing. -/
theorem _root_.Verif.Spec.WeakerThan.yearsLe {cops1 cops2 : CarbonOps ℝ κ} {d1 d2 d1' d2' : Driver ℝ κ} {p1 p2 : RunPams ℝ}
    (hc : WeakerThan d1 d2) {dep : ℝ} {ok : ℝ → Prop} (hok : ∀ w, WeightOf d2 w → ok w) {f1 f2 : ℕ → YearForcing ℝ}
    {v1 v2 : ℕ → Option (Dict ℝ)} (g1 : ForcedBy cops1 d1 d1' p1 f1 v1) (g2 : ForcedBy cops2 d2 d2' p2 f2 v2) :
    YearsLe d1 d2 dep ok f1 f2 := by
  intro n hn vn1 vs1 vn2 vs2 x1 x2 z1 z2
  obtain ⟨w, fn1, fs1, un1, us1, fn2, fs2, un2, us2, i1, i2, l1, l2, l3, l4⟩ := hc.years n (by omega)
  obtain ⟨rf1, s1⟩ := i1.source
  obtain ⟨rf2, s2⟩ := i2.source
  have hw := hok w ⟨n, _, _, _, _, by omega, i2⟩
  obtain ⟨a1, a2, a3, a4, a5⟩ := (g1.input s1 (by have := hc.start; have := hc.end; omega) x1 x2).unique i1
  obtain ⟨b1, b2, b3, b4, b5⟩ := (g2.input s2 hn z1 z2).unique i2
  rw [a1, a2, a3, b1, b2, b3, a4, a5, b4, b5]
  exact ⟨.inl rfl, hw, l1, l2, l3, l4⟩

/-- **C93**, two-layer model: with parameters for which no layer loses more heat in a year than it has, a run with no smaller
inputs reports no lower temperature and no smaller heat content in any year. -/
theorem C93_order_two_layer {cops1 cops2 : CarbonOps ℝ κ} {d1 d2 d1' d2' : Driver ℝ κ} {p1 p2 : RunPams ℝ}
    {t1 t2 : TwoLayer.Pams ℝ × TwoLayer.State ℝ} (h1 : run cops1 twoLayerOps d1 p1 = .ok (d1', t1))
    (h2 : run cops2 twoLayerOps d2 p2 = .ok (d2', t2)) (hp : p1.udm = p2.udm) {q : TwoLayer.Pams ℝ}
    (hq : twoLayerPams (cutAndCheckPamset twoLayerRequired (p2.udm.getD []) []) = .ok q)
    (hsmall : ∀ w, WeightOf d2 w → SmallSteps q.mixed q.deep q.k q.ocean_efficacy (q.lambda + w * q.delta_lambda_aero))
    (hf0 : 0 ≤ q.foan + q.foas) (hf2 : q.foan + q.foas ≤ 2) (hc : WeakerThan d1 d2) :
    ∀ o ∈ ["dT_glob", "dT_fast", "dT_slow", "OHC_MIXED", "OHC_DEEP", "OHC700", "OHCTOT"],
      ∀ n : ℕ, d2.nystart + n ≤ d2.nyend → EntryLe d1'.results d2'.results o n := by
  exact order_two_layer h1 h2 hp hq hf0 hf2 hc.start hc.end fun _ _ _ _ g1 g2 => hc.yearsLe hsmall g1 g2

/-! ## The diffusion model -/

/-- The years of the thermal model are the inputs of the run. -/
theorem udm_years {cops : CarbonOps ℝ κ} {d d' : Driver ℝ κ} {p : RunPams ℝ} {f : ℕ → YearForcing ℝ}
    {prev : ℕ → Option (Dict ℝ)} (h : ForcedBy cops d d' p f prev) {rf : Forcing ℝ} (hs : d.source = .forcing rf)
    {years : List (UDM.Year ℝ)} (hl : years.length = (d.nyend - d.nystart + 1).toNat)
    (hy : ∀ n, n < years.length → ∃ vn vs, d.volcN[n]? = some vn ∧ d.volcS[n]? = some vs ∧
        years[n]? = some ⟨(f n).wAero, (f n).fn, (f n).fs, vn, vs⟩) {n : ℕ} (hn : n < years.length)
    {w fn fs : ℝ} {vn vs : List ℝ} (hi : YearInput d n w fn fs vn vs) :
    years[n] = ⟨w, fn, fs, vn, vs⟩ := by
  obtain ⟨vn', vs', e1, e2, e3⟩ := hy n hn
  rw [List.getElem?_eq_getElem hn, Option.some.injEq] at e3
  obtain ⟨rfl, rfl, rfl, rfl, rfl⟩ := (h.input hs (by omega) e1 e2).unique hi
  exact e3

theorem udm_length {solve : UDM.Solver ℝ} : ∀ {ys : List (UDM.Year ℝ)} {m m' : UDM.Model ℝ} {outs : List (UDM.Out ℝ)},
    UDM.run solve m ys = .ok (outs, m') → outs.length = ys.length
  | [], m, m', outs, h => by
    simp only [UDM.run, Except.ok.injEq, Prod.mk.injEq] at h
    rw [← h.1]; rfl
  | y :: ys, m, m', outs, h => by
    simp only [UDM.run, bind_eq_ok] at h
    obtain ⟨r, -, rest, h2, h⟩ := h
    simp only [pure_ok, Except.ok.injEq, Prod.mk.injEq] at h
    rw [← h.1, List.length_cons, List.length_cons, udm_length h2]

/-- Everything the diffusion model reports. -/
def diffusionSeries : List String :=
  ["RIB_glob", "RIB_N", "RIB_S", "dT_glob", "dT_NH", "dT_SH", "dT_glob_air", "dT_NH_air", "dT_SH_air", "dT_glob_sea",
   "dT_NH_sea", "dT_SHsea", "OHC700", "OHCTOT"]

/-- **C93**, diffusion model with constant upwelling: if the inputs of a run with prescribed forcing are `a` times those of one
plus `b` times those of another, so is everything the thermal model reports, in every year. -/
theorem C93_sum_diffusion {solve : UDM.Solver ℝ} (hsol : Exact solve) {cops1 cops2 cops : CarbonOps ℝ κ}
    {d1 d2 d d1' d2' d' : Driver ℝ κ} {p1 p2 p : RunPams ℝ} {t1 t2 t : UDM.Model ℝ}
    (h1 : run cops1 (udmOps solve) d1 p1 = .ok (d1', t1)) (h2 : run cops2 (udmOps solve) d2 p2 = .ok (d2', t2))
    (h : run cops (udmOps solve) d p = .ok (d', t)) (hp1 : p1.udm = p.udm) (hp2 : p2.udm = p.udm) {q : UDM.Pams ℝ}
    (hq : udmPams (cutAndCheckPamset udmRequired (p.udm.getD []) []) = .ok q) (ht : q.threstemp = 0) {a b : ℝ}
    (hc : Superposed a b d1 d2 d) : ∀ o ∈ diffusionSeries,
      ∀ n : ℕ, d.nystart + n ≤ d.nyend → EntrySum a b d1'.results d2'.results d'.results o n := by
  obtain ⟨q1, m1, ys1, o1, f1, a1, k1, b1, c1, e1, g1, r1⟩ := C81_diffusion h1
  obtain ⟨q2, m2, ys2, o2, f2, a2, k2, b2, c2, e2, g2, r2⟩ := C81_diffusion h2
  obtain ⟨q3, m3, ys, o3, f, a3, k3, b3, c3, e3, g3, r3⟩ := C81_diffusion h
  rw [hp1, hq, Except.ok.injEq] at a1
  rw [hp2, hq, Except.ok.injEq] at a2
  rw [hq, Except.ok.injEq] at a3
  subst a1 a2 a3
  rw [k3, Except.ok.injEq] at k1 k2
  subst k1 k2
  have n1 : ys1.length = ys.length := by rw [c1, c3, hc.start1, hc.end1]
  have n2 : ys2.length = ys.length := by rw [c2, c3, hc.start2, hc.end2]
  have l1 := udm_length b1
  have l2 := udm_length b2
  have l3 := udm_length b3
  have hys : ∀ (n : ℕ) (hn : n < ys.length), Compatible (ys1[n]'(by omega)) (ys2[n]'(by omega)) ∧
      ys[n] = combine a b (ys1[n]'(by omega)) (ys2[n]'(by omega)) := by
    intro n hn
    obtain ⟨w, fn1, fs1, vn1, vs1, fn2, fs2, vn2, vs2, i1, i2, v1, v2, i3⟩ := hc.years n (by omega)
    obtain ⟨rf1, s1⟩ := i1.source
    obtain ⟨rf2, s2⟩ := i2.source
    obtain ⟨rf3, s3⟩ := i3.source
    rw [udm_years g1 s1 c1 e1 (by omega) i1, udm_years g2 s2 c2 e2 (by omega) i2, udm_years g3 s3 c3 e3 hn i3]
    exact ⟨⟨rfl, v1, v2⟩, rfl⟩
  have hcomp : List.Forall₂ Compatible ys1 ys2 := by
    rw [List.forall₂_iff_get]
    refine ⟨by omega, fun i j1 j2 => ?_⟩
    simpa using (hys i (by omega)).1
  have hz : ys = List.zipWith (combine a b) ys1 ys2 := by
    refine List.ext_getElem (by simp [n1, n2]) fun i j1 j2 => ?_
    rw [List.getElem_zipWith]
    exact (hys i j1).2
  obtain ⟨k, hk⟩ := C36_linear hsol ht k3 a b hcomp b1 b2
  rw [← hz, b3, Except.ok.injEq, Prod.mk.injEq] at hk
  obtain ⟨hk, -⟩ := hk
  intro o ho n hn
  have hlt : n < ys.length := by omega
  have K : o3[n]'(by omega) = combineOut a b (o1[n]'(by omega)) (o2[n]'(by omega)) := by
    simp only [hk, List.getElem_zipWith]
  obtain ⟨u1, u2, u3, u4, u5, u6, u7, u8, u9, u10, u11, u12, u13, u14⟩ := r1
  obtain ⟨v1, v2, v3, v4, v5, v6, v7, v8, v9, v10, v11, v12, v13, v14⟩ := r2
  obtain ⟨w1, w2, w3, w4, w5, w6, w7, w8, w9, w10, w11, w12, w13, w14⟩ := r3
  have key : ∀ (s : String) (g : UDM.Out ℝ → ℝ), d1'.results.get? s = some (o1.map g) →
      d2'.results.get? s = some (o2.map g) → d'.results.get? s = some (o3.map g) →
      (∀ x y, g (combineOut a b x y) = a * g x + b * g y) → EntrySum a b d1'.results d2'.results d'.results s n := by
    intro s g x1 x2 x3 x4
    exact entry_sum x1 x2 x3 (by omega) (by omega) (by omega) (by rw [K, x4])
  simp only [diffusionSeries, List.mem_cons, List.not_mem_nil, or_false] at ho
  rcases ho with rfl | rfl | rfl | rfl | rfl | rfl | rfl | rfl | rfl | rfl | rfl | rfl | rfl | rfl
  · exact key _ _ u1 v1 w1 (fun _ _ => rfl)
  · exact key _ _ u2 v2 w2 (fun _ _ => rfl)
  · exact key _ _ u3 v3 w3 (fun _ _ => rfl)
  · exact key _ _ u4 v4 w4 (fun _ _ => rfl)
  · exact key _ _ u5 v5 w5 (fun _ _ => rfl)
  · exact key _ _ u6 v6 w6 (fun _ _ => rfl)
  · exact key _ _ u7 v7 w7 (fun _ _ => rfl)
  · exact key _ _ u8 v8 w8 (fun _ _ => rfl)
  · exact key _ _ u9 v9 w9 (fun _ _ => rfl)
  · exact key _ _ u10 v10 w10 (fun _ _ => rfl)
  · exact key _ _ u11 v11 w11 (fun _ _ => rfl)
  · exact key _ _ u12 v12 w12 (fun _ _ => rfl)
  · exact key _ _ u13 v13 w13 (fun _ _ => rfl)
  · exact key _ _ u14 v14 w14 (fun _ _ => rfl)

/-- Without a state dependent feedback the aerosol weights do not matter. -/
theorem udm_weights {solve : UDM.Solver ℝ} (hs : Exact solve) {q : UDM.Pams ℝ} (h0 : q.delta_lambda_aero = 0) (w : ℕ → ℝ)
    {ys : List (UDM.Year ℝ)} {os : List (UDM.Out ℝ)} {m : UDM.Model ℝ} (h : UDM.run solve (UDM.init q) ys = .ok (os, m)) :
    UDM.run solve (UDM.init q) (ys.mapIdx fun n y => { y with w_aero := w n }) = .ok (os, m) := by
  induction ys using List.reverseRecOn generalizing os m with
  | nil => exact h
  | append_singleton ys y ih =>
    obtain ⟨os', m1, o, h1, h2, rfl⟩ := Verif.Lemmas.UDM.run_snoc.1 h
    have a := Verif.Lemmas.UDM.run_after hs h1
    rw [List.mapIdx_append]
    simp only [List.mapIdx_cons, List.mapIdx_nil]
    refine Verif.Lemmas.UDM.run_snoc.2 ⟨os', m1, o, ih h1, ?_, rfl⟩
    have e : ∀ w, UDM.setFeedback m1 w = m1 := by
      intro w
      unfold UDM.setFeedback
      rw [if_pos]
      rw [misEq, a.pams, h0, sci0]
    rw [e] at h2
    simp only [e]
    exact h2

/-- Two runs of any kind with the diffusion model whose years are ordered. -/
theorem order_diffusion {solve : UDM.Solver ℝ} (hsol : Exact solve) {cops1 cops2 : CarbonOps ℝ κ}
    {d1 d2 d1' d2' : Driver ℝ κ} {p1 p2 : RunPams ℝ} {t1 t2 : UDM.Model ℝ}
    (h1 : run cops1 (udmOps solve) d1 p1 = .ok (d1', t1)) (h2 : run cops2 (udmOps solve) d2 p2 = .ok (d2', t2))
    (hp : p1.udm = p2.udm) {q : UDM.Pams ℝ}
    (hq : udmPams (cutAndCheckPamset udmRequired (p2.udm.getD []) []) = .ok q) (hph : Physical q) (ht : q.threstemp = 0)
    (ho : Ordered q q.W) (hg : Gentle q q.W) (hn1 : q.foan ≤ 1) (hs1 : q.foas ≤ 1) (h700 : q.mixed ≤ 700)
    (hns : d1.nystart = d2.nystart) (hne : d1.nyend = d2.nyend)
    (hy : ∀ f1 f2 v1 v2, ForcedBy cops1 d1 d1' p1 f1 v1 → ForcedBy cops2 d2 d2' p2 f2 v2 →
      YearsLe d1 d2 q.delta_lambda_aero (fun w => 0 < feedback q w) f1 f2) :
    ∀ o ∈ ["dT_glob", "dT_NH", "dT_SH", "dT_glob_air", "dT_NH_air", "dT_SH_air", "dT_glob_sea", "dT_NH_sea", "dT_SHsea",
        "OHC700", "OHCTOT"],
      ∀ n : ℕ, d2.nystart + n ≤ d2.nyend → EntryLe d1'.results d2'.results o n := by
  obtain ⟨q1, m1, zs1, o1, f1, a1, k1, b0, c1, e0, g1, r1⟩ := C81_diffusion h1
  obtain ⟨q2, m2, ys2, o2, f2, a2, k2, b2, c2, e2, g2, r2⟩ := C81_diffusion h2
  rw [hp, hq, Except.ok.injEq] at a1
  rw [hq, Except.ok.injEq] at a2
  subst a1 a2
  rw [k2, Except.ok.injEq] at k1
  subst k1
  obtain ⟨ys1, n1, b1, e1⟩ : ∃ ys1, ys1.length = ys2.length ∧ UDM.run solve m2 ys1 = .ok (o1, t1) ∧
      ∀ n < ys2.length, ∃ vn vs, d1.volcN[n]? = some vn ∧ d1.volcS[n]? = some vs ∧
        ys1[n]? = some ⟨(f2 n).wAero, (f1 n).fn, (f1 n).fs, vn, vs⟩ := by
    have n1 : zs1.length = ys2.length := by rw [c1, c2, hns, hne]
    by_cases h0 : q.delta_lambda_aero = 0
    · refine ⟨zs1.mapIdx fun n y => { y with w_aero := (f2 n).wAero }, by simpa using n1, ?_, ?_⟩
      · have em : m2 = UDM.init q := C35.create_ok k2
        rw [em] at b0 ⊢
        exact udm_weights hsol h0 _ b0
      · intro n hn
        obtain ⟨vn, vs, x1, x2, x3⟩ := e0 n (by omega)
        exact ⟨vn, vs, x1, x2, by rw [List.getElem?_mapIdx, x3]; rfl⟩
    · refine ⟨zs1, n1, b0, fun n hn => ?_⟩
      obtain ⟨vn, vs, x1, x2, x3⟩ := e0 n (by omega)
      obtain ⟨vn2, vs2, z1, z2, z3⟩ := e2 n hn
      obtain ⟨l0, -⟩ := hy _ _ _ _ g1 g2 n (by omega) _ _ _ _ x1 x2 z1 z2
      exact ⟨vn, vs, x1, x2, by rw [x3, l0.resolve_right h0]⟩
  have l1 := udm_length b1
  have l2 := udm_length b2
  have hys : ∀ (n : ℕ) (hn : n < ys2.length), Compatible ys2[n] (ys1[n]'(by omega)) ∧
      Warming (combine 1 (-1) ys2[n] (ys1[n]'(by omega))) ∧ 0 < feedback q (ys2[n]).w_aero := by
    intro n hn
    obtain ⟨vn1, vs1, x1, x2, x3⟩ := e1 n hn
    obtain ⟨vn2, vs2, z1, z2, z3⟩ := e2 n hn
    obtain ⟨-, l, v1, v2, v3, v4⟩ := hy _ _ _ _ g1 g2 n (by omega) _ _ _ _ x1 x2 z1 z2
    rw [List.getElem?_eq_getElem (by omega), Option.some.injEq] at x3 z3
    rw [x3, z3]
    have hdiff : ∀ {u v : List ℝ}, List.Forall₂ (· ≤ ·) u v →
        ∀ x ∈ List.zipWith (fun x y => (1 : ℝ) * x + -1 * y) v u, 0 ≤ x := by
      intro u v huv
      induction huv with
      | nil => simp
      | cons hab _ ih =>
        intro x hx
        rw [List.zipWith_cons_cons, List.mem_cons] at hx
        rcases hx with rfl | hx
        · linarith
        · exact ih x hx
    refine ⟨⟨rfl, v3.length_eq.symm, v4.length_eq.symm⟩, ⟨?_, ?_, hdiff v3, hdiff v4⟩, l⟩
    · show 0 ≤ 1 * (f2 n).fn + -1 * (f1 n).fn
      linarith
    · show 0 ≤ 1 * (f2 n).fs + -1 * (f1 n).fs
      linarith
  have hcomp : List.Forall₂ Compatible ys2 ys1 := by
    rw [List.forall₂_iff_get]
    refine ⟨by omega, fun i j1 j2 => ?_⟩
    simpa using (hys i (by omega)).1
  obtain ⟨k, hk⟩ := C36_linear hsol ht k2 1 (-1) hcomp b2 b1
  have hz : ∀ y ∈ List.zipWith (combine 1 (-1)) ys2 ys1, Warming y ∧ 0 < feedback q y.w_aero := by
    intro y hy
    obtain ⟨i, hi, rfl⟩ := List.mem_iff_getElem.1 hy
    rw [List.length_zipWith] at hi
    rw [List.getElem_zipWith]
    exact (hys i (by omega)).2
  have hwarm := C35_warming hsol hph ht ho hg k2 _ (fun y hy => (hz y hy).1) (fun y hy => (hz y hy).2) hk
  have hblend := C76.C76_temperatures hsol k2 hk
  have hupper := C37_C38_C39.C37_upper700_partial hsol k2 hph.mixed h700 _ hk
  intro o ho' n hn
  have hlt : n < ys2.length := by omega
  have hmem : combineOut 1 (-1) (o2[n]'(by omega)) (o1[n]'(by omega)) ∈ List.zipWith (combineOut 1 (-1)) o2 o1 := by
    have e : (List.zipWith (combineOut 1 (-1)) o2 o1)[n]'(by simp; omega) =
      combineOut 1 (-1) (o2[n]'(by omega)) (o1[n]'(by omega)) := List.getElem_zipWith
    rw [← e]
    exact List.getElem_mem _
  obtain ⟨w1, w2, w3, w4, w5, w6⟩ := hwarm _ hmem
  obtain ⟨x1, x2, x3, x4, x5⟩ := hblend _ hmem
  obtain ⟨x6, -⟩ := hupper _ hmem
  have y1 : 0 ≤ (combineOut 1 (-1) (o2[n]'(by omega)) (o1[n]'(by omega))).dtempnh := by
    rw [x4]
    exact add_nonneg (mul_nonneg hph.north.le w4) (mul_nonneg (by linarith) w2)
  have y2 : 0 ≤ (combineOut 1 (-1) (o2[n]'(by omega)) (o1[n]'(by omega))).dtempsh := by
    rw [x5]
    exact add_nonneg (mul_nonneg hph.south.le w5) (mul_nonneg (by linarith) w3)
  have y3 : 0 ≤ (combineOut 1 (-1) (o2[n]'(by omega)) (o1[n]'(by omega))).OHC700 := by
    rw [x6]
    refine mul_nonneg (by unfold ohcUnit; norm_num) (Finset.sum_nonneg fun i _ => mul_nonneg ?_ ?_)
    · unfold above
      exact le_max_left _ _
    · exact add_nonneg (mul_nonneg hph.north.le (w1 i).1) (mul_nonneg hph.south.le (w1 i).2)
  obtain ⟨-, -, -, u4, u5, u6, u7, u8, u9, u10, u11, u12, u13, u14⟩ := r1
  obtain ⟨-, -, -, v4, v5, v6, v7, v8, v9, v10, v11, v12, v13, v14⟩ := r2
  have key : ∀ (s : String) (g : UDM.Out ℝ → ℝ), d1'.results.get? s = some (o1.map g) →
      d2'.results.get? s = some (o2.map g) →
      (∀ x y, g (combineOut 1 (-1) x y) = 1 * g x + -1 * g y) →
      0 ≤ g (combineOut 1 (-1) (o2[n]'(by omega)) (o1[n]'(by omega))) → EntryLe d1'.results d2'.results s n := by
    intro s g x1 x2 x3 x4
    rw [x3] at x4
    exact entry_le x1 x2 (by omega) (by omega) (by linarith)
  simp only [List.mem_cons, List.not_mem_nil, or_false] at ho'
  rcases ho' with rfl | rfl | rfl | rfl | rfl | rfl | rfl | rfl | rfl | rfl | rfl
  · exact key _ _ u4 v4 (fun _ _ => rfl) (by rw [x1]; linarith)
  · exact key _ _ u5 v5 (fun _ _ => rfl) y1
  · exact key _ _ u6 v6 (fun _ _ => rfl) y2
  · exact key _ _ u7 v7 (fun _ _ => rfl) (by rw [x2]; linarith)
  · exact key _ _ u8 v8 (fun _ _ => rfl) w2
  · exact key _ _ u9 v9 (fun _ _ => rfl) w3
  · exact key _ _ u10 v10 (fun _ _ => rfl) (by rw [x3]; linarith)
  · exact key _ _ u11 v11 (fun _ _ => rfl) w4
  · exact key _ _ u12 v12 (fun _ _ => rfl) w5
  · exact key _ _ u13 v13 (fun _ _ => rfl) y3
  · exact key _ _ u14 v14 (fun _ _ => rfl) w6

/-- **C93**, diffusion model with constant upwelling in the physical range: a run with no smaller inputs reports no lower
temperature (surface, air, sea surface, either hemisphere or global) and no smaller heat content in any year. -/
theorem C93_order_diffusion {solve : UDM.Solver ℝ} (hsol : Exact solve) {cops1 cops2 : CarbonOps ℝ κ}
    {d1 d2 d1' d2' : Driver ℝ κ} {p1 p2 : RunPams ℝ} {t1 t2 : UDM.Model ℝ}
    (h1 : run cops1 (udmOps solve) d1 p1 = .ok (d1', t1)) (h2 : run cops2 (udmOps solve) d2 p2 = .ok (d2', t2))
    (hp : p1.udm = p2.udm) {q : UDM.Pams ℝ}
    (hq : udmPams (cutAndCheckPamset udmRequired (p2.udm.getD []) []) = .ok q) (hph : Physical q) (ht : q.threstemp = 0)
    (ho : Ordered q q.W) (hg : Gentle q q.W) (hn1 : q.foan ≤ 1) (hs1 : q.foas ≤ 1) (h700 : q.mixed ≤ 700)
    (hfb : ∀ w, WeightOf d2 w → 0 < feedback q w) (hc : WeakerThan d1 d2) :
    ∀ o ∈ ["dT_glob", "dT_NH", "dT_SH", "dT_glob_air", "dT_NH_air", "dT_SH_air", "dT_glob_sea", "dT_NH_sea", "dT_SHsea",
        "OHC700", "OHCTOT"],
      ∀ n : ℕ, d2.nystart + n ≤ d2.nyend → EntryLe d1'.results d2'.results o n := by
  exact order_diffusion hsol h1 h2 hp hq hph ht ho hg hn1 hs1 h700 hc.start hc.end fun _ _ _ _ g1 g2 => hc.yearsLe hfb g1 g2

/-! ## The hypotheses are met -/

section
open Verif.Exec Verif.Lemmas.Tridiag

/-- `n` years with the forcing `x`, solar forcing 0.2 and the volcanic forcing `v` in every month. -/
noncomputable def plainDriver (n : ℕ) (x v : ℝ) : Driver ℝ Unit :=
  { nystart := 2000, nyend := 1999 + n, source := .forcing (.array (List.replicate n x)), feedbackList := none,
    volcN := List.replicate n (List.replicate 12 v), volcS := List.replicate n (List.replicate 12 v),
    sun := List.replicate n 0.2, luc := List.replicate n 0, results := [] }

theorem plain_input (n : ℕ) (x v : ℝ) {k : ℕ} (hk : k < n) :
    YearInput (plainDriver n x v) k 0 (x + 0.2) (x + 0.2) (List.replicate 12 v) (List.replicate 12 v) := by
  refine ⟨?_, ?_, 0.2, ?_, Or.inl ⟨_, x, rfl, ?_, rfl, rfl, rfl⟩⟩ <;> simp [plainDriver, hk]

theorem plain_months (n : ℕ) (x v : ℝ) (k : ℕ) (vn vs : List ℝ) (h1 : (plainDriver n x v).volcN[k]? = some vn)
    (h2 : (plainDriver n x v).volcS[k]? = some vs) : vn.length = vs.length ∧ vn ≠ [] := by
  rw [List.eq_of_mem_replicate (List.mem_of_getElem? h1), List.eq_of_mem_replicate (List.mem_of_getElem? h2)]
  simp

theorem plain_runs (n : ℕ) (x v : ℝ) :
    ∃ d' t', run noCarbon (twoLayerOps (F := ℝ)) (plainDriver n x v) ⟨none, none, none⟩ = .ok (d', t') :=
  C41_succeeds noCarbon (xs := List.replicate n x) (by simp) rfl (by simp only [plainDriver]; omega)
    (by simp [plainDriver]; omega) (by simp [plainDriver]; omega) (by simp [plainDriver]; omega) (by simp [plainDriver]; omega)
    (fun i vn vs h1 h2 => (plain_months n x v i vn vs h1 h2).1)

theorem plain_runs_udm (n : ℕ) (x v : ℝ) :
    ∃ d' m, run noCarbon (udmOps exactSolver) (plainDriver n x v) ⟨some flatSet, none, none⟩ = .ok (d', m) :=
  run_array_works (udm_works exactSolver_exact flat_set flat_safe) (xs := List.replicate n x) rfl
    (by simp only [plainDriver]; omega) (by simp [plainDriver]; omega) (by simp [plainDriver]; omega) (by simp [plainDriver]; omega)
    (by simp [plainDriver]; omega) (plain_months n x v)

/-- Twice a forcing of 1 with volcanoes of -1 plus three times a forcing of 2. -/
theorem plain_superposed (n : ℕ) :
    Superposed 2 3 (plainDriver n 1 (-1)) (plainDriver n 2 0) (plainDriver n 8.8 (-2)) := by
  refine ⟨rfl, rfl, rfl, rfl, fun k hk => ?_⟩
  have hk' : k < n := by simp only [plainDriver] at hk; omega
  refine ⟨0, _, _, _, _, _, _, _, _, plain_input n 1 (-1) hk', plain_input n 2 0 hk', rfl, rfl, ?_⟩
  have h := plain_input n 8.8 (-2) hk'
  have e1 : (2 : ℝ) * (1 + 0.2) + 3 * (2 + 0.2) = 8.8 + 0.2 := by norm_num
  have e2 : List.zipWith (fun x y : ℝ => 2 * x + 3 * y) (List.replicate 12 (-1)) (List.replicate 12 0) =
      List.replicate 12 (-2) := by
    simp
  rw [e1, e2]
  exact h

theorem plain_weaker (n : ℕ) : WeakerThan (plainDriver n 1 (-1)) (plainDriver n 2 0) := by
  refine ⟨rfl, rfl, fun k hk => ?_⟩
  have hk' : k < n := by simp only [plainDriver] at hk; omega
  have e : List.Forall₂ (fun x y : ℝ => x ≤ y) (List.replicate 12 (-1)) (List.replicate 12 0) := by
    rw [List.forall₂_iff_get]
    exact ⟨rfl, fun i h1 h2 => by rw [List.get_eq_getElem, List.get_eq_getElem, List.getElem_replicate, List.getElem_replicate]; norm_num⟩
  exact ⟨0, _, _, _, _, _, _, _, _, plain_input n 1 (-1) hk', plain_input n 2 0 hk', by norm_num, by norm_num, e, e⟩

theorem plain_weight {n : ℕ} {x v w : ℝ} (h : WeightOf (plainDriver n x v) w) : w = 0 := by
  obtain ⟨k, fn, fs, vn, vs, hk, hi⟩ := h
  exact ((plain_input n x v (by simp only [plainDriver] at hk; omega)).unique hi).1.symm

/-- Two-layer model with default parameters, `n` years: the global temperatures add up. -/
example (n k : ℕ) (hk : k < n) : ∃ d1 d2 d3 t1 t2 t3,
    run noCarbon (twoLayerOps (F := ℝ)) (plainDriver n 1 (-1)) ⟨none, none, none⟩ = .ok (d1, t1) ∧
    run noCarbon (twoLayerOps (F := ℝ)) (plainDriver n 2 0) ⟨none, none, none⟩ = .ok (d2, t2) ∧
    run noCarbon (twoLayerOps (F := ℝ)) (plainDriver n 8.8 (-2)) ⟨none, none, none⟩ = .ok (d3, t3) ∧
    EntrySum 2 3 d1.results d2.results d3.results "dT_glob" k := by
  obtain ⟨d1, t1, h1⟩ := plain_runs n 1 (-1)
  obtain ⟨d2, t2, h2⟩ := plain_runs n 2 0
  obtain ⟨d3, t3, h3⟩ := plain_runs n 8.8 (-2)
  exact ⟨d1, d2, d3, t1, t2, t3, h1, h2, h3, C93_sum_two_layer h1 h2 h3 rfl rfl (plain_superposed n) _ (by simp) k
    (by simp only [plainDriver]; omega)⟩

/-- Two-layer model with default parameters, `n` years: the run with less forcing is not warmer. -/
example (n k : ℕ) (hk : k < n) : ∃ d1 d2 t1 t2,
    run noCarbon (twoLayerOps (F := ℝ)) (plainDriver n 1 (-1)) ⟨none, none, none⟩ = .ok (d1, t1) ∧
    run noCarbon (twoLayerOps (F := ℝ)) (plainDriver n 2 0) ⟨none, none, none⟩ = .ok (d2, t2) ∧
    EntryLe d1.results d2.results "dT_glob" k ∧ EntryLe d1.results d2.results "OHCTOT" k := by
  obtain ⟨d1, t1, h1⟩ := plain_runs n 1 (-1)
  obtain ⟨d2, t2, h2⟩ := plain_runs n 2 0
  have hq : twoLayerPams (cutAndCheckPamset (twoLayerRequired (F := ℝ)) [] []) = .ok TwoLayer.Pams.default := by
    have e : twoLayerPams (cutAndCheckPamset (twoLayerRequired (F := ℝ)) [] []) =
      .ok ⟨3.74 / 3.0, ofInt 50, ofInt 1200, 0.5, ofInt 1, 0.61, 0.81, 0.0⟩ := rfl
    rw [e]
    norm_num [TwoLayer.Pams.default]
  have key := C93_order_two_layer h1 h2 rfl hq (fun w hw => by
      rw [plain_weight hw]
      constructor <;> norm_num [TwoLayer.Pams.default])
    (by norm_num [TwoLayer.Pams.default]) (by norm_num [TwoLayer.Pams.default]) (plain_weaker n)
  exact ⟨d1, d2, t1, t2, h1, h2, key _ (by simp) k (by simp only [plainDriver]; omega),
    key _ (by simp) k (by simp only [plainDriver]; omega)⟩

/-- Diffusion model with default parameters and constant upwelling, `n` years: both claims. -/
example (n k : ℕ) (hk : k < n) : ∃ d1 d2 d3 t1 t2 t3,
    run noCarbon (udmOps exactSolver) (plainDriver n 1 (-1)) ⟨some flatSet, none, none⟩ = .ok (d1, t1) ∧
    run noCarbon (udmOps exactSolver) (plainDriver n 2 0) ⟨some flatSet, none, none⟩ = .ok (d2, t2) ∧
    run noCarbon (udmOps exactSolver) (plainDriver n 8.8 (-2)) ⟨some flatSet, none, none⟩ = .ok (d3, t3) ∧
    EntrySum 2 3 d1.results d2.results d3.results "dT_NH" k ∧ EntryLe d1.results d2.results "dT_NH" k := by
  obtain ⟨d1, t1, h1⟩ := plain_runs_udm n 1 (-1)
  obtain ⟨d2, t2, h2⟩ := plain_runs_udm n 2 0
  obtain ⟨d3, t3, h3⟩ := plain_runs_udm n 8.8 (-2)
  refine ⟨d1, d2, d3, t1, t2, t3, h1, h2, h3, ?_, ?_⟩
  · exact C93_sum_diffusion exactSolver_exact h1 h2 h3 rfl rfl flat_set rfl (plain_superposed n) _
      (by simp [diffusionSeries]) k (by simp only [plainDriver]; omega)
  · exact C93_order_diffusion exactSolver_exact h1 h2 rfl flat_set C35.flat_physical rfl C35.flat_ordered C35.flat_gentle
      (by simp only [C35.flatPams]; norm_num) (by simp only [C35.flatPams]; norm_num)
      (by simp only [C35.flatPams]; norm_num) (fun w _ => C35.flat_feedback w) (plain_weaker n) _ (by simp) k
      (by simp only [plainDriver]; omega)

end

end Verif.Props
