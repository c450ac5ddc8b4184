import Verif.Props.C81_bounded
import Verif.Props.C88

/-!
# C88 — whole runs of the diffusion model under constant forcing
-/

namespace Verif.Props
open Verif.Py Verif.Py.Dict Verif.Model Verif.Model.Handler Verif.Model.Driver Verif.Model.ThermalInst Verif.Spec
open Verif.Spec.Diffusion (Physical Within feedback upwelling)
open Verif.Spec.Tridiag (Exact)
open Verif.Props.C35 (Deep700 Readable create_of upwelling_flat)
open Verif.Lemmas.UDM (sci0 sci1 sci2)
open Verif.Props.C88 (Repeats)
open Filter Topology

/-- An instance driven by an array, with the same forcing (array plus sun) `f` and the same volcanic rows in every
year. -/
structure SameEveryYear {κ : Type} (d : Driver ℝ κ) (xs : List ℝ) (f : ℝ) (vn vs : List ℝ) : Prop where
  source : d.source = .forcing (.array xs)
  order : d.nystart ≤ d.nyend + 1
  array : d.nyend - d.nystart < xs.length
  sun : d.nyend - d.nystart < d.sun.length
  north : d.nyend - d.nystart < d.volcN.length
  south : d.nyend - d.nystart < d.volcS.length
  total : ∀ (n : ℕ) (x s : ℝ), xs[n]? = some x → d.sun[n]? = some s → x + s = f
  volcNorth : ∀ r ∈ d.volcN, r = vn
  volcSouth : ∀ r ∈ d.volcS, r = vs

/-- **C88**, whole runs. Parameters of the diffusion model with constant upwelling, ocean efficacy one and a feedback
that dominates, forcing and volcanoes the same in every year: every run completes, however long, and there is a year
number, the same for all of them, after which the reported global temperatures are within `ε` of forcing times
`lambda` and the reported imbalance within `ε` of zero. -/
theorem C88_run {κ : Type} {solve : UDM.Solver ℝ} (hsol : Exact solve) (cops : CarbonOps ℝ κ) {p : RunPams ℝ}
    {q : UDM.Pams ℝ} (hq : udmPams (cutAndCheckPamset udmRequired (p.udm.getD []) []) = .ok q) (hp : Physical q)
    (hl : 0 < q.lambda) (h7 : Deep700 q) (ht : q.threstemp = 0) (he : q.ocean_efficacy = 1)
    (hst : Diffusion.Stable q (1 / q.lambda) q.W) (f : ℝ) {vn vs : List ℝ} (hn : (vn.length : ℤ) = q.ldtime)
    (hs : (vs.length : ℤ) = q.ldtime) {ε : ℝ} (hε : 0 < ε) :
    ∃ N : ℕ, ∀ (d : Driver ℝ κ) (xs : List ℝ), SameEveryYear d xs f vn vs →
      ∃ d' m, run cops (udmOps solve) d p = .ok (d', m) ∧
        ∀ y, d.nystart + N ≤ y → y ≤ d.nyend → ∃ T A R,
          entry d'.results "dT_glob" (y - d.nystart).toNat = some T ∧
          entry d'.results "dT_glob_air" (y - d.nystart).toNat = some A ∧
          entry d'.results "RIB_glob" (y - d.nystart).toNat = some R ∧
          |T - (f + (vn.sum / vn.length + vs.sum / vs.length) / 2) * q.lambda| < ε ∧
          |A - (f + (vn.sum / vn.length + vs.sum / vs.length) / 2) * q.lambda| < ε ∧ |R| < ε := by
  have hcr := create_of hp hl
  have hfb : feedback q 0.0 = 1 / q.lambda := by unfold feedback; rw [sci0]; ring
  have hfpos : 0 < feedback q 0.0 := by rw [hfb]; exact one_div_pos.2 hl
  set Y : UDM.Year ℝ := ⟨0.0, f, f, vn, vs⟩ with hY
  obtain ⟨o, hrep, l1, l2, -, l3⟩ := C88.C88_equilibrium (y := Y) hsol hp ht he h7 hcr hn hs hfpos
    (by show Diffusion.Stable q (feedback q 0.0) q.W; rw [hfb]; exact hst)
  have elim : C88.yearForcing Y / feedback q Y.w_aero
      = (f + (vn.sum / vn.length + vs.sum / vs.length) / 2) * q.lambda := by
    show C88.yearForcing Y / feedback q 0.0 = _
    rw [hfb]
    simp only [C88.yearForcing, hY, C76.average]
    field_simp
    ring
  rw [elim] at l1 l2
  obtain ⟨N1, e1⟩ := Metric.tendsto_atTop.1 l1 ε hε
  obtain ⟨N2, e2⟩ := Metric.tendsto_atTop.1 l2 ε hε
  obtain ⟨N3, e3⟩ := Metric.tendsto_atTop.1 l3 ε hε
  refine ⟨max N1 (max N2 N3), ?_⟩
  intro d xs hd
  obtain ⟨v, hv0, hv⟩ := C88.list_bound (vn ++ vs)
  obtain ⟨M, hM, hdm⟩ := C88.Stable.damped hp (one_div_pos.2 hl) hst (|f| + v) (add_nonneg (abs_nonneg _) hv0)
  have h1 := hp.steps
  have hne : vn ≠ [] := by rintro rfl; simp at hn; omega
  obtain ⟨d', m, hrun, -⟩ := C81_array_bounded (b := |f|) (v := v) hsol cops hd.source hq hp hl h7 hM (abs_nonneg _) hv0
    { order := hd.order, array := hd.array, sun := hd.sun, north := hd.north, south := hd.south
      total := fun n x s a b => by rw [hd.total n x s a b]
      volcanoes := fun n a b ha hb => by
        rw [hd.volcNorth a (List.mem_of_getElem? ha), hd.volcSouth b (List.mem_of_getElem? hb)]
        exact ⟨hne, by omega, fun x hx => hv x (by simp [hx]), fun x hx => hv x (by simp [hx])⟩ }
    (fun t _ => by rw [upwelling_flat ht]; exact hdm)
  refine ⟨d', m, hrun, ?_⟩
  obtain ⟨q', m0, years, outs, F, k1, k2, k3, k4, k5, k6, r1, -, -, t1, -, -, t4, -⟩ := C81_diffusion hrun
  rw [hq, Except.ok.injEq] at k1
  subst k1
  have hyears : years = List.replicate years.length Y := by
    refine List.eq_replicate_of_mem fun y hy => ?_
    obtain ⟨n, hn', e⟩ := List.mem_iff_getElem.1 hy
    obtain ⟨a, b, e3, e4, e5⟩ := k5 n hn'
    obtain ⟨x, s, x1, x2, x3⟩ := k6.array hd.source (n := n) (by omega)
    rw [List.getElem?_eq_getElem hn', e, Option.some.injEq] at e5
    rw [e5, x3, hd.total n x s x1 x2, hd.volcNorth a (List.mem_of_getElem? e3), hd.volcSouth b (List.mem_of_getElem? e4)]
  rw [hyears] at k3
  obtain ⟨m1, hrep'⟩ := hrep years.length
  rw [C35.create_ok hcr, ← C35.create_ok k2, k3, Except.ok.injEq, Prod.mk.injEq] at hrep'
  obtain ⟨rfl, -⟩ := hrep'
  have key : ∀ (s : String) (g : UDM.Out ℝ → ℝ), d'.results.get? s = some (((List.range years.length).map o).map g) →
      ∀ y, d.nystart ≤ y → y ≤ d.nyend → entry d'.results s (y - d.nystart).toNat = some (g (o (y - d.nystart).toNat)) := by
    intro s g e y y1 y2
    unfold entry
    rw [e, Option.bind_some, List.getElem?_map, List.getElem?_map, List.getElem?_range (by omega)]
    rfl
  intro y y1 y2
  have y0 : d.nystart ≤ y := by omega
  refine ⟨_, _, _, key _ _ t1 y y0 y2, key _ _ t4 y y0 y2, key _ _ r1 y y0 y2, ?_, ?_, ?_⟩
  · simpa [Real.dist_eq] using e2 (y - d.nystart).toNat (by omega)
  · simpa [Real.dist_eq] using e1 (y - d.nystart).toNat (by omega)
  · simpa [Real.dist_eq] using e3 (y - d.nystart).toNat (by omega)

/-! ## The hypotheses are met -/

section
open Verif.Lemmas.Tridiag

/-- `n` years of 3.5 W/m² and a sun of 0.2 W/m², no volcanoes. -/
noncomputable def steadyDriver (n : ℕ) : Driver ℝ Unit :=
  { nystart := 2000, nyend := 1999 + n, source := .forcing (.array (List.replicate n 3.5)), feedbackList := none,
    volcN := List.replicate n (List.replicate 12 0), volcS := List.replicate n (List.replicate 12 0),
    sun := List.replicate n 0.2, luc := List.replicate n 0, results := [] }

theorem steady_same (n : ℕ) : SameEveryYear (steadyDriver n) (List.replicate n 3.5) 3.7 (List.replicate 12 0)
    (List.replicate 12 0) := by
  refine ⟨rfl, ?_, ?_, ?_, ?_, ?_, ?_, ?_, ?_⟩
  · simp only [steadyDriver]; omega
  · simp only [steadyDriver, List.length_replicate]; omega
  · simp only [steadyDriver, List.length_replicate]; omega
  · simp only [steadyDriver, List.length_replicate]; omega
  · simp only [steadyDriver, List.length_replicate]; omega
  · intro k x s h1 h2
    rw [List.eq_of_mem_replicate (List.mem_of_getElem? h1), List.eq_of_mem_replicate (List.mem_of_getElem? h2)]
    norm_num
  · exact fun r hr => List.eq_of_mem_replicate hr
  · exact fun r hr => List.eq_of_mem_replicate hr

/-- With the default parameters and `threstemp` zero, sufficiently long runs end within a thousandth of a kelvin of
2.257 K. -/
example : ∃ N : ℕ, ∀ n : ℕ, N < n → ∃ d' m T,
    run noCarbon (udmOps exactSolver) (steadyDriver n) ⟨some flatSet, none, none⟩ = .ok (d', m) ∧
    entry d'.results "dT_glob" (n - 1) = some T ∧ |T - 2.257| < 0.001 := by
  obtain ⟨N, h⟩ := C88_run exactSolver_exact noCarbon (p := ⟨some flatSet, none, none⟩) flat_set
    C35.flat_physical (by simp only [C35.flatPams]; norm_num) C35.flat_deep rfl rfl
    (by have := C88.flat_stable 0
        rwa [show feedback C35.flatPams 0 = 1 / C35.flatPams.lambda by unfold feedback; ring] at this)
    3.7 (vn := List.replicate 12 0) (vs := List.replicate 12 0) rfl rfl (ε := 0.001) (by norm_num)
  refine ⟨N, fun n hn => ?_⟩
  obtain ⟨d', m, h1, h2⟩ := h (steadyDriver n) _ (steady_same n)
  obtain ⟨T, A, R, e1, -, -, e2, -⟩ := h2 (1999 + n) (by simp only [steadyDriver]; omega) (by simp only [steadyDriver]; omega)
  refine ⟨d', m, T, h1, ?_, ?_⟩
  · rwa [show ((1999 : ℤ) + n - (steadyDriver n).nystart).toNat = n - 1 by simp only [steadyDriver]; omega] at e1
  · have : (3.7 + ((List.replicate 12 (0 : ℝ)).sum / (List.replicate 12 (0 : ℝ)).length
        + (List.replicate 12 (0 : ℝ)).sum / (List.replicate 12 (0 : ℝ)).length) / 2) * C35.flatPams.lambda = 2.257 := by
      simp only [C35.flatPams]; norm_num
    rwa [this] at e2

end
end Verif.Props
