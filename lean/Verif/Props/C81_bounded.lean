import Verif.Props.C81_reported

/-!
# C81 — runs of the diffusion model driven by a forcing array complete and stay bounded
-/

namespace Verif.Props
open Verif.Py Verif.Py.Dict Verif.Model Verif.Model.Handler Verif.Model.Driver Verif.Model.ThermalInst Verif.Spec
open Verif.Spec.Diffusion (Physical Damped Within feedback upwelling)
open Verif.Spec.Tridiag (Exact)
open Verif.Props.C35 (Deep700 Readable create_of)
open Verif.Lemmas.UDM (sci0 sci1 sci2 run_snoc)

section
variable {F κ τ : Type} [Add F] [Sub F] [Mul F] [Div F] [Neg F] [OfScientific F] [LT F] [DecidableLT F] [MathFn F]

/-- A run driven by an array succeeds if the thermal model can step through its forcings. -/
theorem run_array_inv {cops : CarbonOps F κ} {tops : ThermalOps F τ} {d : Driver F κ} {p : RunPams F} {t0 : τ}
    (P : ℤ → τ → Prop) (hc : tops.create p.udm = .ok t0) (h0 : P d.nystart t0) {xs : List F}
    (hs : d.source = .forcing (.array xs)) (hle : d.nystart ≤ d.nyend + 1)
    (hxs : d.nyend - d.nystart < xs.length) (hsun : d.nyend - d.nystart < d.sun.length)
    (hvn : d.nyend - d.nystart < d.volcN.length) (hvs : d.nyend - d.nystart < d.volcS.length)
    (hP : ∀ y t x s vn vs, d.nystart ≤ y → y ≤ d.nyend → P y t → xs[(y - d.nystart).toNat]? = some x →
      d.sun[(y - d.nystart).toNat]? = some s → d.volcN[(y - d.nystart).toNat]? = some vn →
      d.volcS[(y - d.nystart).toNat]? = some vs → ∃ values t',
      tops.budget (tops.setFeedback t 0.0) (x + s) (x + s) vn vs = .ok (values, t') ∧ P (y + 1) t' ∧
      ∀ o ∈ tops.outputs, ∃ v, values.get? o.2 = some v) :
    ∃ d' t', run cops tops d p = .ok (d', t') := by
  obtain ⟨r0, hr0⟩ : ∃ r0, initialiseOutputArrays tops d.nystart d.nyend d.results = .ok r0 := by
    unfold initialiseOutputArrays
    rw [if_neg (by omega)]
    exact ⟨_, rfl⟩
  have hstart : startRun cops tops d p =
      .ok { thermal := t0, values := none, source := .forcing (.array xs), results := r0 } := by
    unfold startRun
    rw [hr0, bind_ok, hc, bind_ok, hs]
    rfl
  set n := (d.nyend - d.nystart + 1).toNat with hndef
  have hloop := fold_ok (step := yearStep cops tops d)
    (fun y s => d.nystart ≤ y ∧ s.source = .forcing (.array xs) ∧ P y s.thermal ∧
      ∀ o ∈ tops.outputs.map Prod.fst ++ forcOutputList, len s.results o = some n) (d.nyend + 1)
    (by
      rintro y s hy ⟨hy0, hsrc, hPy, hl⟩
      obtain ⟨x, hx⟩ := rowOf_exists (l := xs) (i := y - d.nystart) (by omega) (by omega)
      obtain ⟨u, hu⟩ := rowOf_exists (l := d.sun) (i := y - d.nystart) (by omega) (by omega)
      obtain ⟨vn, hn⟩ := rowOf_exists (l := d.volcN) (i := y - d.nystart) (by omega) (by omega)
      obtain ⟨vs, hv⟩ := rowOf_exists (l := d.volcS) (i := y - d.nystart) (by omega) (by omega)
      have hf : yearForcing cops d s.source s.values y =
          .ok (⟨x + u, x + u, x + u, 0.0⟩, .forcing (.array xs)) := by
        rw [hsrc]
        simp only [yearForcing, forcSet, prescribed, hx, hu, bind_ok, pure_ok]
      obtain ⟨values, t', hb, hPt, hk⟩ := hP y s.thermal x u vn vs hy0 (by omega) hPy (rowOf_eq_ok.1 hx).2
        (rowOf_eq_ok.1 hu).2 (rowOf_eq_ok.1 hn).2 (rowOf_eq_ok.1 hv).2
      obtain ⟨r', hr, hl'⟩ := addYearData_ok (tops := tops) (d := d) (r := s.results) (values := values)
        (x + u) (index := y - d.nystart) (n := n) (by omega) (by omega) hk hl (by omega) (by omega)
        (by omega)
      refine ⟨{ thermal := t', values := some values, source := .forcing (.array xs), results := r' },
        ?_, by omega, rfl, hPt, fun o ho => by rw [hl']; exact hl o ho⟩
      unfold yearStep
      rw [hf, bind_ok]
      simp only [hn, hv, hb, hr, bind_ok, pure_ok])
    _ d.nystart { thermal := t0, values := none, source := .forcing (.array xs), results := r0 } rfl
    ⟨le_refl _, rfl, h0, fun o ho => by
      show len r0 o = some n
      unfold len; rw [(initialise_spec hr0).2 o ho]; simp [hndef]⟩
  obtain ⟨s', hs'⟩ := hloop
  refine ⟨{ d with source := s'.source, results := s'.results }, s'.thermal, ?_⟩
  unfold run
  rw [hstart, bind_ok, hs', bind_ok, pure_ok]

/-- The forcings of a run driven by an array. -/
theorem ForcedBy.array {cops : CarbonOps F κ} {d d' : Driver F κ} {p : RunPams F} {f : ℕ → YearForcing F}
    {prev : ℕ → Option (Dict F)} (h : ForcedBy cops d d' p f prev) {xs : List F} (hs : d.source = .forcing (.array xs))
    {n : ℕ} (hn : n < (d.nyend - d.nystart + 1).toNat) :
    ∃ x s, xs[n]? = some x ∧ d.sun[n]? = some s ∧ f n = ⟨x + s, x + s, x + s, 0.0⟩ := by
  obtain ⟨src, h0, -, hstep⟩ := h.chain
  have hsrc : ∀ k, k ≤ n → src k = .forcing (.array xs) := by
    intro k
    induction k with
    | zero =>
      intro _
      rw [hs] at h0
      simpa [resetSource] using h0.symm
    | succ k ih =>
      intro hk
      have := hstep k (by omega)
      rw [ih (by omega)] at this
      exact (forcing_source this).2
  have e := hstep n hn
  rw [hsrc n le_rfl] at e
  have e := (forcing_source e).1
  unfold forcSet prescribed at e
  simp only [bind_eq_ok] at e
  obtain ⟨q, ⟨x, hx, hq⟩, s, hsun, e⟩ := e
  rw [pure_ok, Except.ok.injEq] at hq e
  subst hq
  have ex := (rowOf_eq_ok.1 hx).2
  have es := (rowOf_eq_ok.1 hsun).2
  rw [show (d.nystart + (n : ℤ) - d.nystart).toNat = n by omega] at ex es
  exact ⟨x, s, ex, es, e.symm⟩

end

/-- The nine temperature series of the diffusion model. -/
def temperatureSeries : List String :=
  ["dT_glob", "dT_NH", "dT_SH", "dT_glob_air", "dT_NH_air", "dT_SH_air", "dT_glob_sea", "dT_NH_sea", "dT_SHsea"]

/-- The forcing array plus solar forcing stays within ±`b`, the volcanic rows are complete and stay within ±`v`. -/
structure ArrayWithin {κ : Type} (d : Driver ℝ κ) (xs : List ℝ) (b v : ℝ) : Prop where
  order : d.nystart ≤ d.nyend + 1
  array : d.nyend - d.nystart < xs.length
  sun : d.nyend - d.nystart < d.sun.length
  north : d.nyend - d.nystart < d.volcN.length
  south : d.nyend - d.nystart < d.volcS.length
  total : ∀ (n : ℕ) (x s : ℝ), xs[n]? = some x → d.sun[n]? = some s → |x + s| ≤ b
  volcanoes : ∀ (n : ℕ) (vn vs : List ℝ), d.volcN[n]? = some vn → d.volcS[n]? = some vs →
    vn ≠ [] ∧ vn.length ≤ vs.length ∧ (∀ x ∈ vn, |x| ≤ v) ∧ ∀ x ∈ vs, |x| ≤ v

/-- **C81**, diffusion model driven by an array: if the forcing stays within ±`b` (with solar) and ±`v` (volcanic) and
the feedback is strong enough for that at every upwelling rate that temperatures within ±`M` produce, then the run
completes and no temperature it reports exceeds `M`. -/
theorem C81_array_bounded {κ : Type} {solve : UDM.Solver ℝ} (hsol : Exact solve) (cops : CarbonOps ℝ κ) {d : Driver ℝ κ}
    {p : RunPams ℝ} {xs : List ℝ} (hs : d.source = .forcing (.array xs)) {q : UDM.Pams ℝ}
    (hq : udmPams (cutAndCheckPamset udmRequired (p.udm.getD []) []) = .ok q) (hp : Physical q) (hl : 0 < q.lambda)
    (h7 : Deep700 q) {M b v : ℝ} (hM : 0 < M) (hb : 0 ≤ b) (hv : 0 ≤ v) (hw : ArrayWithin d xs b v)
    (hd : ∀ t, |t| ≤ M → Damped q (1 / q.lambda) (b + v) M (upwelling q t)) :
    ∃ d' m, run cops (udmOps solve) d p = .ok (d', m) ∧
      ∀ o ∈ temperatureSeries, ∀ y, d.nystart ≤ y → y ≤ d.nyend →
        ∃ T, entry d'.results o (y - d.nystart).toNat = some T ∧ |T| ≤ M := by
  have hcr := create_of hp hl
  have hfb : feedback q 0.0 = 1 / q.lambda := by unfold feedback; rw [sci0]; ring
  have hfpos : 0 < feedback q 0.0 := by rw [hfb]; exact one_div_pos.2 hl
  -- the history of the thermal model
  let Y : ℕ → UDM.Year ℝ := fun k => ⟨0.0, xs.getD k 0 + d.sun.getD k 0, xs.getD k 0 + d.sun.getD k 0, d.volcN.getD k [],
    d.volcS.getD k []⟩
  have good : ∀ (x s : ℝ) (vn vs : List ℝ) (n : ℕ), xs[n]? = some x → d.sun[n]? = some s → d.volcN[n]? = some vn →
      d.volcS[n]? = some vs → Readable ⟨0.0, x + s, x + s, vn, vs⟩ ∧ Within b v ⟨0.0, x + s, x + s, vn, vs⟩ := by
    intro x s vn vs n e1 e2 e3 e4
    obtain ⟨a1, a2, a3, a4⟩ := hw.volcanoes n vn vs e3 e4
    have a0 := hw.total n x s e1 e2
    exact ⟨⟨a1, a2⟩, ⟨a0, a0, a3, a4⟩⟩
  have hget : ∀ {α : Type} (l : List α) (df : α) (k : ℕ), d.nyend - d.nystart < l.length →
      k < (d.nyend - d.nystart + 1).toNat → l[k]? = some (l.getD k df) := by
    intro α l df k h1 h2
    have : k < l.length := by omega
    rw [List.getD_eq_getElem?_getD, List.getElem?_eq_getElem this]
    rfl
  have hY : ∀ k, k < (d.nyend - d.nystart + 1).toNat → Readable (Y k) ∧ Within b v (Y k) := fun k hk =>
    good _ _ _ _ k (hget xs 0 k hw.array hk) (hget d.sun 0 k hw.sun hk) (hget d.volcN [] k hw.north hk)
      (hget d.volcS [] k hw.south hk)
  have hrun : ∀ n, n ≤ (d.nyend - d.nystart + 1).toNat → ∃ outs m,
      UDM.run solve (UDM.init q) ((List.range n).map Y) = .ok (outs, m) := by
    intro n hn
    obtain ⟨outs, m, h, -⟩ := C78.C78_bounded hsol hp h7 hcr hM hb hv ((List.range n).map Y)
      (fun y hy => by
        obtain ⟨k, hk, rfl⟩ := List.mem_map.1 hy
        exact (hY k (by have := List.mem_range.1 hk; omega)).1)
      (fun y hy => by
        obtain ⟨k, hk, rfl⟩ := List.mem_map.1 hy
        exact (hY k (by have := List.mem_range.1 hk; omega)).2)
      (fun y hy => by
        obtain ⟨k, hk, rfl⟩ := List.mem_map.1 hy
        exact hfpos)
      (fun y hy => by
        obtain ⟨k, hk, rfl⟩ := List.mem_map.1 hy
        show ∀ t, |t| ≤ M → Damped q (feedback q 0.0) (b + v) M (upwelling q t)
        rw [hfb]
        exact hd)
    exact ⟨outs, m, h⟩
  obtain ⟨d', m, h⟩ : ∃ d' m, run cops (udmOps solve) d p = .ok (d', m) := by
    refine run_array_inv (cops := cops) (tops := udmOps solve)
      (fun y m => ∃ outs, UDM.run solve (UDM.init q) ((List.range (y - d.nystart).toNat).map Y) = .ok (outs, m))
      (t0 := UDM.init q) ?_ ⟨[], by simp [UDM.run]⟩ hs hw.order hw.array hw.sun hw.north hw.south ?_
    · show udmCreate p.udm = _
      unfold udmCreate
      rw [hq, bind_ok, hcr]
    · rintro y m x s vn vs h1 h2 ⟨outs, hm⟩ e1 e2 e3 e4
      obtain ⟨outs', m', h'⟩ := hrun ((y - d.nystart).toNat + 1) (by omega)
      rw [List.range_succ, List.map_append, List.map_cons, List.map_nil, run_snoc] at h'
      obtain ⟨os, m1, o, g1, g2, rfl⟩ := h'
      rw [hm, Except.ok.injEq, Prod.mk.injEq] at g1
      obtain ⟨rfl, rfl⟩ := g1
      have hYy : Y (y - d.nystart).toNat = ⟨0.0, x + s, x + s, vn, vs⟩ := by
        simp only [Y, List.getD_eq_getElem?_getD, e1, e2, e3, e4, Option.getD_some]
      rw [hYy] at g2
      refine ⟨udmOutDict o, m', ?_, ⟨outs ++ [o], ?_⟩, ?_⟩
      · show (do let r ← UDM.energyBudget solve (UDM.setFeedback m 0.0) (x + s) (x + s) vn vs; pure (udmOutDict r.1, r.2)) = _
        rw [g2, bind_ok]; rfl
      · rw [show (y + 1 - d.nystart).toNat = (y - d.nystart).toNat + 1 by omega, List.range_succ, List.map_append,
          List.map_cons, List.map_nil, run_snoc]
        exact ⟨outs, m, o, hm, by rw [hYy]; exact g2, rfl⟩
      · intro r hr
        have : r ∈ udmOutputs := hr
        unfold udmOutputs at this
        simp only [List.mem_cons, List.not_mem_nil, or_false] at this
        rcases this with rfl | rfl | rfl | rfl | rfl | rfl | rfl | rfl | rfl | rfl | rfl | rfl | rfl | rfl <;>
          exact ⟨_, rfl⟩
  refine ⟨d', m, h, ?_⟩
  obtain ⟨q', m0, years, outs, f, k1, k2, k3, k4, k5, k6, k7, k8, k9, t1, t2, t3, t4, t5, t6, t7, t8, t9, -⟩ := C81_diffusion h
  rw [hq, Except.ok.injEq] at k1
  subst k1
  have hyears : ∀ y ∈ years, Readable y ∧ Within b v y ∧ y.w_aero = 0.0 := by
    intro y hy
    obtain ⟨n, hn, e⟩ := List.mem_iff_getElem.1 hy
    obtain ⟨vn, vs, e3, e4, e5⟩ := k5 n hn
    obtain ⟨x, s, e1, e2, e6⟩ := k6.array hs (n := n) (by omega)
    rw [List.getElem?_eq_getElem hn, e, Option.some.injEq] at e5
    rw [e5, e6]
    obtain ⟨g1, g2⟩ := good x s vn vs n e1 e2 e3 e4
    exact ⟨g1, g2, rfl⟩
  obtain ⟨outs', m', c1, c2, c3⟩ := C78.C78_bounded hsol hp h7 k2 hM hb hv years (fun y hy => (hyears y hy).1)
    (fun y hy => (hyears y hy).2.1) (fun y hy => by rw [(hyears y hy).2.2]; exact hfpos)
    (fun y hy => by rw [(hyears y hy).2.2, hfb]; exact hd)
  rw [k3, Except.ok.injEq, Prod.mk.injEq] at c1
  obtain ⟨rfl, rfl⟩ := c1
  have key : ∀ (o : String) (g : UDM.Out ℝ → ℝ), d'.results.get? o = some (outs.map g) → (∀ x ∈ outs, |g x| ≤ M) →
      ∀ y, d.nystart ≤ y → y ≤ d.nyend → ∃ T, entry d'.results o (y - d.nystart).toNat = some T ∧ |T| ≤ M := by
    intro o g e hg y h1 h2
    have hlt : (y - d.nystart).toNat < outs.length := by omega
    refine ⟨g outs[(y - d.nystart).toNat], ?_, hg _ (List.getElem_mem hlt)⟩
    unfold entry
    rw [e, Option.bind_some, List.getElem?_map, List.getElem?_eq_getElem hlt, Option.map_some]
  intro o ho
  simp only [temperatureSeries, List.mem_cons, List.not_mem_nil, or_false] at ho
  rcases ho with rfl | rfl | rfl | rfl | rfl | rfl | rfl | rfl | rfl
  · exact key _ _ t1 (fun x hx => (c3 x hx).surface.1)
  · exact key _ _ t2 (fun x hx => (c3 x hx).surface.2.1)
  · exact key _ _ t3 (fun x hx => (c3 x hx).surface.2.2)
  · exact key _ _ t4 (fun x hx => (c3 x hx).air.1)
  · exact key _ _ t5 (fun x hx => (c3 x hx).air.2.1)
  · exact key _ _ t6 (fun x hx => (c3 x hx).air.2.2)
  · exact key _ _ t7 (fun x hx => (c3 x hx).sea.1)
  · exact key _ _ t8 (fun x hx => (c3 x hx).sea.2.1)
  · exact key _ _ t9 (fun x hx => (c3 x hx).sea.2.2)

/-! ## The hypotheses are met: the default parameters -/

section
open Verif.Lemmas.Tridiag

theorem usual_set : udmPams (cutAndCheckPamset (udmRequired (F := ℝ)) ((none : Option (Dict (PyVal ℝ))).getD []) []) =
    .ok C78.usualPams := by
  have h : udmPams (cutAndCheckPamset (udmRequired (F := ℝ)) ((none : Option (Dict (PyVal ℝ))).getD []) []) =
      .ok { rlamdo := 15.0, akapa := 0.66, cpi := 0.21, W := 2.2, beto := 6.9, threstemp := 7.0, lambda := 0.61,
            mixed := 107.0, foan := 0.61, foas := 0.81, ebbeta := 0.0, lm := 40, ldtime := 12, ocean_efficacy := 1.0,
            delta_lambda_aero := 0.0 } := rfl
  rw [h, C78.usualPams, C35.flatPams, sci0, sci1]
  norm_num

/-- An instance driven by an array of `n` years of 9 W/m² with the sun and a volcano. -/
noncomputable def hotDriver (n : ℕ) : Driver ℝ Unit :=
  { nystart := 2000, nyend := 1999 + n, source := .forcing (.array (List.replicate n 9)), feedbackList := none,
    volcN := List.replicate n (List.replicate 12 (-2)), volcS := List.replicate n (List.replicate 12 1),
    sun := List.replicate n 0.5, luc := List.replicate n 0, results := [] }

/-- With the default parameters of the diffusion model: however many years the run has, it completes and no temperature
exceeds ten kelvin. -/
theorem hot_runs (n : ℕ) : ∃ d' m, run noCarbon (udmOps exactSolver) (hotDriver n) ⟨none, none, none⟩ = .ok (d', m) ∧
    ∀ o ∈ temperatureSeries, ∀ y, 2000 ≤ y → y ≤ 1999 + (n : ℤ) →
      ∃ T, entry d'.results o (y - 2000).toNat = some T ∧ |T| ≤ 10 :=
  C81_array_bounded exactSolver_exact noCarbon (d := hotDriver n) (p := ⟨none, none, none⟩) (xs := List.replicate n 9) rfl
    usual_set C78.usual_physical (by simp only [C78.usualPams, C35.flatPams]; norm_num) C78.usual_deep (M := 10) (b := 10)
    (v := 2) (by norm_num) (by norm_num) (by norm_num)
    { order := by simp only [hotDriver]; omega
      array := by simp only [hotDriver, List.length_replicate]; omega
      sun := by simp only [hotDriver, List.length_replicate]; omega
      north := by simp only [hotDriver, List.length_replicate]; omega
      south := by simp only [hotDriver, List.length_replicate]; omega
      total := by
        intro k x s h1 h2
        rw [List.eq_of_mem_replicate (List.mem_of_getElem? h1), List.eq_of_mem_replicate (List.mem_of_getElem? h2)]
        norm_num
      volcanoes := by
        intro k vn vs h1 h2
        rw [List.eq_of_mem_replicate (List.mem_of_getElem? h1), List.eq_of_mem_replicate (List.mem_of_getElem? h2)]
        refine ⟨by simp, by simp, ?_, ?_⟩ <;> simp only [List.mem_replicate, and_imp] <;> norm_num }
    (fun t ht => by
      have := C78.usual_damped 0 t ht
      rwa [show feedback C78.usualPams 0 = 1 / C78.usualPams.lambda by unfold feedback; ring] at this)

end
end Verif.Props
