import Verif.Props.C91
import Verif.Props.C33_C34
import Verif.Props.C80
import Verif.Props.C83_runs
import Verif.Props.Aerosols

/-!
# C91 — replaying the reported total in the diffusion model
-/

namespace Verif.Props
open Verif.Py Verif.Py.Dict Verif.Model Verif.Model.Handler Verif.Model.Driver Verif.Model.ThermalInst Verif.Spec
open Verif.Spec.Diffusion (Physical feedback meanForcing before)
open Verif.Spec.Tridiag (Exact)
open Verif.Props.C35 (create_of)
open Verif.Lemmas.UDM (sci0 sci1 sci2)

section
variable {κ κ2 : Type}

/-- The mean forcing of a year determines the forcing of that year. -/
theorem meanForcing_injective {n : ℕ} (hn : n ≠ 0) {old new new' : ℝ} {k : ℕ} {volc : List ℝ}
    (h : meanForcing n old new k volc = meanForcing n old new' k volc) : new = new' := by
  have hn' : (0 : ℝ) < n := by exact_mod_cast Nat.pos_of_ne_zero hn
  have hd : meanForcing n old new k volc - meanForcing n old new' k volc =
      (∑ j ∈ Finset.range n, ((j + 1 : ℕ) : ℝ) / n) / n * (new - new') := by
    unfold meanForcing
    rw [← sub_div, ← Finset.sum_sub_distrib, div_mul_eq_mul_div, Finset.sum_mul]
    congr 1
    refine Finset.sum_congr rfl fun j _ => ?_
    ring
  have hpos : 0 < (∑ j ∈ Finset.range n, ((j + 1 : ℕ) : ℝ) / n) / n := by
    refine div_pos (Finset.sum_pos (fun j _ => ?_) ⟨0, by simpa using Nat.pos_of_ne_zero hn⟩) hn'
    positivity
  rw [h, sub_self] at hd
  rcases mul_eq_zero.1 hd.symm with e | e
  · exact absurd e hpos.ne'
  · linarith

/-- The years of a run of the diffusion model, one after the other. -/
theorem diffusion_chain {solve : UDM.Solver ℝ} {cops : CarbonOps ℝ κ} {d d' : Driver ℝ κ} {p : RunPams ℝ}
    {m : UDM.Model ℝ} {st : ℤ → UDM.Model ℝ} {src : ℤ → Source ℝ κ} {f : ℤ → YearForcing ℝ} {vals : ℤ → Dict ℝ}
    (c : RunChain cops (udmOps solve) d p d' m st src f vals) :
    ∃ (vn vs : ℤ → List ℝ) (O : ℤ → UDM.Out ℝ),
      (∀ y, d.nystart ≤ y → y ≤ d.nyend → rowOf d.volcN (y - d.nystart) = .ok (vn y) ∧
        rowOf d.volcS (y - d.nystart) = .ok (vs y) ∧ vals y = udmOutDict (O y)) ∧
      ∀ n : ℕ, n ≤ (d.nyend - d.nystart + 1).toNat →
        UDM.run solve (st d.nystart) ((List.range n).map (fun k : ℕ => (⟨(f (d.nystart + k)).wAero,
          (f (d.nystart + k)).fn, (f (d.nystart + k)).fs, vn (d.nystart + k), vs (d.nystart + k)⟩ : UDM.Year ℝ))) =
        .ok ((List.range n).map (fun k : ℕ => O (d.nystart + k)), st (d.nystart + n)) := by
  have hex : ∀ y, ∃ vn vs o, d.nystart ≤ y → y ≤ d.nyend →
      (rowOf d.volcN (y - d.nystart) = .ok vn ∧ rowOf d.volcS (y - d.nystart) = .ok vs ∧ vals y = udmOutDict o) ∧
      UDM.energyBudget solve (UDM.setFeedback (st y) (f y).wAero) (f y).fn (f y).fs vn vs = .ok (o, st (y + 1)) := by
    intro y
    by_cases hy : d.nystart ≤ y ∧ y ≤ d.nyend
    · obtain ⟨vn, vs, e1, e2, e3⟩ := c.budget y hy.1 hy.2
      simp only [udmOps, bind_eq_ok, pure_ok, Except.ok.injEq, Prod.mk.injEq] at e3
      obtain ⟨⟨o, m2⟩, e4, e5, e6⟩ := e3
      refine ⟨vn, vs, o, fun _ _ => ⟨⟨e1, e2, e5.symm⟩, ?_⟩⟩
      rw [e4, ← e6]
    · exact ⟨[], [], ⟨0.0, 0.0, 0.0, fun _ => 0.0, fun _ => 0.0, 0.0, 0.0, 0.0, 0.0, 0.0, 0.0, 0.0, 0.0, 0.0, 0.0, 0.0,
        0.0⟩, fun a b => absurd ⟨a, b⟩ hy⟩
  choose vn vs O hv using hex
  refine ⟨vn, vs, O, fun y a b => (hv y a b).1, ?_⟩
  intro n
  induction n with
  | zero =>
    intro _
    simp only [Nat.cast_zero, add_zero, List.range_zero, List.map_nil, UDM.run]
  | succ n ih =>
    intro hn
    have e4 := (hv (d.nystart + n) (by omega) (by omega)).2
    rw [show d.nystart + ((n + 1 : ℕ) : ℤ) = d.nystart + n + 1 by push_cast; ring,
      List.range_succ, List.map_append, List.map_cons, List.map_nil, List.map_append, List.map_cons, List.map_nil]
    exact udm_run_snoc (ih (by omega)) e4

/-- The four series that determine the forcing of a run of the diffusion model. -/
def surfaceSeries : List String := ["dT_NH_air", "dT_SH_air", "dT_NH_sea", "dT_SHsea"]

theorem same_outputs {solve : UDM.Solver ℝ} {cops : CarbonOps ℝ κ} {cops2 : CarbonOps ℝ κ2} {d d' : Driver ℝ κ}
    {d2 d3 : Driver ℝ κ2} {p p2 : RunPams ℝ} {m m3 : UDM.Model ℝ} {st st3 : ℤ → UDM.Model ℝ} {src : ℤ → Source ℝ κ}
    {src3 : ℤ → Source ℝ κ2} {f f3 : ℤ → YearForcing ℝ} {vals vals3 : ℤ → Dict ℝ} {O O3 : ℤ → UDM.Out ℝ}
    (c : RunChain cops (udmOps solve) d p d' m st src f vals)
    (c3 : RunChain cops2 (udmOps solve) d2 p2 d3 m3 st3 src3 f3 vals3)
    (h1 : d2.nystart = d.nystart) (h2 : d2.nyend = d.nyend)
    (hO : ∀ y, d.nystart ≤ y → y ≤ d.nyend → vals y = udmOutDict (O y))
    (hO3 : ∀ y, d.nystart ≤ y → y ≤ d.nyend → vals3 y = udmOutDict (O3 y))
    (hsame : SameSeries surfaceSeries d'.results d3.results) {y : ℤ} (hy1 : d.nystart ≤ y) (hy2 : y ≤ d.nyend) :
    (O3 y).dtempnh_air = (O y).dtempnh_air ∧ (O3 y).dtempsh_air = (O y).dtempsh_air ∧
      (O3 y).dtempnh_sea = (O y).dtempnh_sea ∧ (O3 y).dtempsh_sea = (O y).dtempsh_sea := by
  have key : ∀ (o : String × String) (g : UDM.Out ℝ → ℝ), o ∈ udmOutputs → o.1 ∈ surfaceSeries →
      (∀ x, (udmOutDict x).get? o.2 = some (g x)) → g (O3 y) = g (O y) := by
    intro o g ho hs hg
    have e := hsame o.1 hs
    obtain ⟨a, a1, -, a3⟩ := c.thermal o ho
    obtain ⟨b, b1, -, b3⟩ := c3.thermal o ho
    obtain ⟨v, v1, v2⟩ := a3 y (by rw [c.first]; exact hy1) (by rw [c.last]; exact hy2)
    obtain ⟨w, w1, w2⟩ := b3 y (by rw [c3.first, h1]; exact hy1) (by rw [c3.last, h2]; exact hy2)
    rw [a1, b1, Option.some.injEq] at e
    rw [c.first] at v1
    rw [c3.first, h1, e, v1, Option.some.injEq] at w1
    rw [hO y hy1 hy2, hg, Option.some.injEq] at v2
    rw [hO3 y hy1 hy2, hg, Option.some.injEq] at w2
    rw [w2, v2, w1]
  exact ⟨key ("dT_NH_air", "dtempnh_air") _ (by simp [udmOutputs]) (by simp [surfaceSeries]) (fun _ => rfl),
    key ("dT_SH_air", "dtempsh_air") _ (by simp [udmOutputs]) (by simp [surfaceSeries]) (fun _ => rfl),
    key ("dT_NH_sea", "dtempnh_sea") _ (by simp [udmOutputs]) (by simp [surfaceSeries]) (fun _ => rfl),
    key ("dT_SHsea", "dtempsh_sea") _ (by simp [udmOutputs]) (by simp [surfaceSeries]) (fun _ => rfl)⟩

theorem before_map (n : ℕ) (Y : ℕ → UDM.Year ℝ) (g : UDM.Year ℝ → ℝ) :
    before ((List.range n).map Y) g = if n = 0 then 0 else g (Y (n - 1)) := by
  unfold before
  cases n with
  | zero => rfl
  | succ n =>
    rw [List.range_succ, List.map_append, List.map_cons, List.map_nil, List.getLast?_append_cons]
    simp

/-- Two runs of the diffusion model over the same years with the same volcanic series, the same parameters and feedback
that report the same surface temperatures were forced alike in each hemisphere in every year. -/
theorem forcing_determined {solve : UDM.Solver ℝ} (hsol : Exact solve) {cops : CarbonOps ℝ κ} {cops2 : CarbonOps ℝ κ2}
    {d d' : Driver ℝ κ} {d2 d3 : Driver ℝ κ2} {p p2 : RunPams ℝ} {m m3 : UDM.Model ℝ} {st st3 : ℤ → UDM.Model ℝ}
    {src : ℤ → Source ℝ κ} {src3 : ℤ → Source ℝ κ2} {f f3 : ℤ → YearForcing ℝ} {vals vals3 : ℤ → Dict ℝ}
    (c : RunChain cops (udmOps solve) d p d' m st src f vals)
    (c3 : RunChain cops2 (udmOps solve) d2 p2 d3 m3 st3 src3 f3 vals3)
    (h1 : d2.nystart = d.nystart) (h2 : d2.nyend = d.nyend) (hn : d2.volcN = d.volcN) (hs : d2.volcS = d.volcS)
    {q : UDM.Pams ℝ} (hp : Physical q) (hc : UDM.create q = .ok (st d.nystart)) (hc3 : UDM.create q = .ok (st3 d.nystart))
    (hw : ∀ y, d.nystart ≤ y → y ≤ d.nyend → 0 < feedback q (f y).wAero ∧ feedback q (f3 y).wAero = feedback q (f y).wAero)
    (hsame : SameSeries surfaceSeries d'.results d3.results) :
    ∀ y, d.nystart ≤ y → y ≤ d.nyend → (f3 y).fn = (f y).fn ∧ (f3 y).fs = (f y).fs := by
  obtain ⟨vn, vs, O, hv, hrun⟩ := diffusion_chain c
  obtain ⟨vn3, vs3, O3, hv3, hrun3⟩ := diffusion_chain c3
  rw [h1, h2] at hv3 hrun3
  have hvolc : ∀ y, d.nystart ≤ y → y ≤ d.nyend → vn3 y = vn y ∧ vs3 y = vs y := by
    intro y hy1 hy2
    obtain ⟨a1, a2, -⟩ := hv y hy1 hy2
    obtain ⟨b1, b2, -⟩ := hv3 y hy1 hy2
    rw [hn, a1, Except.ok.injEq] at b1
    rw [hs, a2, Except.ok.injEq] at b2
    exact ⟨b1.symm, b2.symm⟩
  have key : ∀ n : ℕ, n ≤ (d.nyend - d.nystart + 1).toNat → ∀ k : ℕ, k < n →
      (f3 (d.nystart + k)).fn = (f (d.nystart + k)).fn ∧ (f3 (d.nystart + k)).fs = (f (d.nystart + k)).fs := by
    intro n
    induction n with
    | zero => intro _ k hk; omega
    | succ n ih =>
      intro hnle k hk
      have ih := ih (by omega)
      rcases Nat.lt_succ_iff_lt_or_eq.1 hk with hk | rfl
      · exact ih k hk
      have hy1 : d.nystart ≤ d.nystart + (k : ℤ) := by omega
      have hy2 : d.nystart + (k : ℤ) ≤ d.nyend := by omega
      have r1 := hrun (k + 1) hnle
      have r3 := hrun3 (k + 1) hnle
      rw [List.range_succ, List.map_append, List.map_cons, List.map_nil, List.map_append, List.map_cons,
        List.map_nil] at r1 r3
      obtain ⟨w1, w2⟩ := hw _ hy1 hy2
      have b1 := C33_C34.C34_surface_balance hsol hp hc r1 w1
      have b3 := C33_C34.C34_surface_balance hsol hp hc3 r3 (by simp only [w2]; exact w1)
      obtain ⟨t1, t2, t3, t4⟩ := same_outputs c c3 h1 h2 (fun y a b => (hv y a b).2.2) (fun y a b => (hv3 y a b).2.2)
        hsame hy1 hy2
      obtain ⟨e1, e2⟩ := hvolc _ hy1 hy2
      simp only [t1, t2, t3, t4, w2, e1, e2, before_map] at b1 b3
      have hst : q.ldtime.toNat ≠ 0 := by
        have := hp.steps
        omega
      have hb : k ≠ 0 → (f3 (d.nystart + ((k - 1 : ℕ) : ℤ))).fn = (f (d.nystart + ((k - 1 : ℕ) : ℤ))).fn ∧
          (f3 (d.nystart + ((k - 1 : ℕ) : ℤ))).fs = (f (d.nystart + ((k - 1 : ℕ) : ℤ))).fs :=
        fun hk0 => ih (k - 1) (by omega)
      by_cases hk0 : k = 0
      · subst hk0
        simp only [reduceIte] at b1 b3
        exact ⟨meanForcing_injective hst (b3.1.symm.trans b1.1), meanForcing_injective hst (b3.2.symm.trans b1.2)⟩
      · simp only [if_neg hk0, (hb hk0).1, (hb hk0).2] at b1 b3
        exact ⟨meanForcing_injective hst (b3.1.symm.trans b1.1), meanForcing_injective hst (b3.2.symm.trans b1.2)⟩
  intro y hy1 hy2
  have := key _ le_rfl (y - d.nystart).toNat (by omega)
  rw [show d.nystart + ((y - d.nystart).toNat : ℤ) = y by omega] at this
  exact this

/-- The state of the diffusion model keeps the parameters it was created with. -/
theorem diffusion_pams {solve : UDM.Solver ℝ} (hsol : Exact solve) {cops : CarbonOps ℝ κ} {d d' : Driver ℝ κ}
    {p : RunPams ℝ} {m : UDM.Model ℝ} {st : ℤ → UDM.Model ℝ} {src : ℤ → Source ℝ κ} {f : ℤ → YearForcing ℝ}
    {vals : ℤ → Dict ℝ} (c : RunChain cops (udmOps solve) d p d' m st src f vals) {q : UDM.Pams ℝ}
    (hc : UDM.create q = .ok (st d.nystart)) {y : ℤ} (hy1 : d.nystart ≤ y) (hy2 : y ≤ d.nyend) : (st y).p = q := by
  obtain ⟨vn, vs, O, -, hrun⟩ := diffusion_chain c
  have h := hrun (y - d.nystart).toNat (by omega)
  rw [C35.create_ok hc] at h
  have := (Lemmas.UDM.run_after hsol h).pams
  rw [show d.nystart + ((y - d.nystart).toNat : ℤ) = y by omega] at this
  exact this

/-- **C91, diffusion model, with the total alone.** `f` are the forcings of the years of an emission- or
concentration-driven run (in that order: north, south, total, aerosol weight), with no aerosol dependence of the feedback
(the default). If the two hemispheres were forced alike in every year, a run driven by the array of reported totals
succeeds and reports the same series. Conversely, if such a run reports the same air and sea surface temperatures of the
hemispheres, they were forced alike in every year. What is missing for the full claim is false of the code, see
`C91_diffusion_false`. -/
theorem C91_diffusion_partial {solve : UDM.Solver ℝ} (hsol : Exact solve) {cops : CarbonOps ℝ κ} {d d1 : Driver ℝ κ}
    {p p2 : RunPams ℝ} {m1 : UDM.Model ℝ} {h0 : Handler ℝ κ} (h : run cops (udmOps solve) d p = .ok (d1, m1))
    (hs : d.source = .handler h0) {q : UDM.Pams ℝ}
    (hq : udmPams (cutAndCheckPamset udmRequired (p.udm.getD []) []) = .ok q) (hp : Physical q) (hl : 0 < q.lambda)
    (hδ : q.delta_lambda_aero = 0) {xs : List ℝ} (hx : d1.results.get? "Total_forcing" = some xs)
    (cops2 : CarbonOps ℝ κ2) {d2 : Driver ℝ κ2} (hr : Replays d (.array xs) d2) (hu : p2.udm = p.udm) :
    ∃ (f : ℕ → YearForcing ℝ) (prev : ℕ → Option (Dict ℝ)), ForcedBy cops d d1 p f prev ∧
      ((∀ n < (d.nyend - d.nystart + 1).toNat, (f n).fn = (f n).fs) →
        ∃ d3, run cops2 (udmOps solve) d2 p2 = .ok (d3, m1) ∧
          SameSeries (udmOutputs.map Prod.fst ++ naturalSeries) d1.results d3.results ∧
          TotalPlusSolar d d1.results d3.results) ∧
      ∀ d3 m3, run cops2 (udmOps solve) d2 p2 = .ok (d3, m3) → SameSeries surfaceSeries d1.results d3.results →
        ∀ n < (d.nyend - d.nystart + 1).toNat, (f n).fn = (f n).fs := by
  have hnd : ((udmOps solve).outputs.map Prod.fst ++ forcOutputList).Nodup := by
    simp [udmOps, udmOutputs, forcOutputList]
  obtain ⟨st, src, f, vals, c⟩ := run_chain hnd h
  have hcr : UDM.create q = .ok (st d.nystart) := by
    have hcr' : udmCreate p.udm = .ok (st d.nystart) := c.create
    unfold udmCreate at hcr'
    rw [hq, bind_ok] at hcr'
    exact hcr'
  have hsun : ∀ y, ∃ s, d.nystart ≤ y → y ≤ d.nyend → rowOf d.sun (y - d.nystart) = .ok s ∧
      ((f y).fn + (f y).fs) / 2 = (f y).forc + s ∧
      entry d1.results "Total_forcing" (y - d.nystart).toNat = some (f y).forc ∧
      entry d1.results "Solar_forcing" (y - d.nystart).toNat = some s := by
    intro y
    by_cases hy : d.nystart ≤ y ∧ y ≤ d.nyend
    · obtain ⟨s, e⟩ := c.mean hs hy.1 hy.2
      exact ⟨s, fun _ _ => e⟩
    · exact ⟨0, fun a b => absurd ⟨a, b⟩ hy⟩
  choose s hsun using hsun
  have hf : ∀ y, d.nystart ≤ y → y ≤ d.nyend → forcSet d2 (.array xs) y =
      .ok ⟨(f y).forc + s y, (f y).forc + s y, (f y).forc + s y, 0.0⟩ := by
    intro y hy1 hy2
    obtain ⟨e1, -, e2, -⟩ := hsun y hy1 hy2
    have ex : rowOf xs (y - d.nystart) = .ok (f y).forc := by
      rw [rowOf_eq_ok]
      refine ⟨by omega, ?_⟩
      unfold entry at e2
      rw [hx, Option.bind_some] at e2
      exact e2
    simp only [forcSet, prescribed, hr.sun, hr.first, ex, e1, bind_ok, pure_ok]
  have hfb : ∀ w, feedback q w = 1 / q.lambda := by
    intro w
    unfold feedback
    rw [hδ, mul_zero, add_zero]
  have hyear : ∀ y, d.nystart ≤ y → y ≤ d.nyend → ∃ n : ℕ, n < (d.nyend - d.nystart + 1).toNat ∧ y = d.nystart + n :=
    fun y a b => ⟨(y - d.nystart).toNat, by omega, by omega⟩
  refine ⟨fun n : ℕ => f (d.nystart + n), fun n : ℕ => if d.nystart + (n : ℤ) = d.nystart then none else some (vals (d.nystart + n - 1)),
    ⟨⟨fun n : ℕ => src (d.nystart + n), by simpa using c.reset, ?_, ?_⟩, ?_⟩, ?_, ?_⟩
  · have := c.order
    beta_reduce
    rw [c.source, show d.nystart + ((d.nyend - d.nystart + 1).toNat : ℤ) = d.nyend + 1 by omega]
  · intro n hn
    have := c.forcing (d.nystart + n) (by omega) (by omega)
    beta_reduce
    rw [show d.nystart + ((n + 1 : ℕ) : ℤ) = d.nystart + n + 1 by push_cast; ring]
    exact this
  · have := series_list (g := fun y => (f y).forc) c.total
    rw [this, c.first, c.last]
  · intro heq
    have hb : ∀ y (vn vs : List ℝ), d.nystart ≤ y → y ≤ d.nyend →
        (udmOps solve).budget ((udmOps solve).setFeedback (st y) 0.0) ((f y).forc + s y) ((f y).forc + s y) vn vs =
          (udmOps solve).budget ((udmOps solve).setFeedback (st y) (f y).wAero) (f y).fn (f y).fs vn vs := by
      intro y vn vs hy1 hy2
      have hpam := diffusion_pams hsol c hcr hy1 hy2
      have hset : ∀ w, (udmOps solve).setFeedback (st y) w = st y := by
        intro w
        show UDM.setFeedback (st y) w = st y
        unfold UDM.setFeedback
        rw [if_pos (by rw [hpam, hδ, sci0, misEq])]
      obtain ⟨n, hn, e⟩ := hyear y hy1 hy2
      have e1 := heq n hn
      have e2 := (hsun y hy1 hy2).2.1
      beta_reduce at e1
      rw [← e] at e1
      rw [hset, hset, show (f y).forc + s y = (f y).fn by linarith, ← e1]
    obtain ⟨d3, k1, k2, k3, k4, k5⟩ := replay hnd h c cops2 hr hu hf hb
    refine ⟨d3, k1, k2, ?_⟩
    intro y hy1 hy2
    obtain ⟨-, -, e2, e3⟩ := hsun y hy1 hy2
    refine ⟨_, _, e2, e3, ?_⟩
    have := series_entry (y := y) k5 (by rw [k3]; exact hy1) (by rw [k4]; exact hy2)
    rw [k3] at this
    exact this
  · intro d3 m3 h3 hsame n hn
    obtain ⟨st3, src3, f3, vals3, c3⟩ := run_chain hnd h3
    have hcr3 : UDM.create q = .ok (st3 d.nystart) := by
      have hcr' : udmCreate p2.udm = .ok (st3 d2.nystart) := c3.create
      unfold udmCreate at hcr'
      rw [hu, hq, bind_ok, hr.first] at hcr'
      exact hcr'
    have hsrc3 : ∀ n : ℕ, d.nystart + n ≤ d.nyend + 1 → src3 (d.nystart + n) = .forcing (.array xs) := by
      intro n
      induction n with
      | zero =>
        intro _
        have := c3.reset
        rw [hr.source, hr.first] at this
        simpa [resetSource] using this.symm
      | succ n ih =>
        intro hn
        have := c3.forcing (d.nystart + n) (by rw [hr.first]; omega) (by rw [hr.last]; omega)
        rw [ih (by omega)] at this
        rw [show d.nystart + ((n + 1 : ℕ) : ℤ) = d.nystart + n + 1 by push_cast; ring]
        exact (forcing_source this).2
    have hy1 : d.nystart ≤ d.nystart + (n : ℤ) := by omega
    have hy2 : d.nystart + (n : ℤ) ≤ d.nyend := by omega
    obtain ⟨e1, e2⟩ := forcing_determined hsol c c3 hr.first hr.last hr.north hr.south hp hcr hcr3
      (fun y _ _ => ⟨by rw [hfb]; exact one_div_pos.2 hl, by rw [hfb, hfb]⟩) hsame _ hy1 hy2
    have e3 := c3.forcing (d.nystart + n) (by rw [hr.first]; omega) (by rw [hr.last]; omega)
    rw [hsrc3 n (by omega)] at e3
    have e3 := (forcing_source e3).1
    rw [hf _ hy1 hy2, Except.ok.injEq] at e3
    rw [← e1, ← e2, ← e3]

theorem ForcedBy.handlers {cops : CarbonOps ℝ κ} {d d' : Driver ℝ κ} {p : RunPams ℝ} {f : ℕ → YearForcing ℝ}
    {prev : ℕ → Option (Dict ℝ)} (hf : ForcedBy cops d d' p f prev) {h g0 : Handler ℝ κ} (hs : d.source = .handler h)
    (hr : resetWithNewPams cops h p.emiconc p.carbon = .ok g0) :
    ∀ n < (d.nyend - d.nystart + 1).toNat, ∃ (h1 : Handler ℝ κ) (luc sun : ℝ) (r : ForcResult ℝ) (h2 : Handler ℝ κ),
      conc2forc h1 (d.nystart + n) luc sun = .ok (r, h2) ∧ f n = ⟨r.nh, r.sh, r.tot, r.wAero⟩ ∧ h1.pam = g0.pam := by
  obtain ⟨src, h0, -, hstep⟩ := hf.chain
  rw [hs] at h0
  simp only [resetSource, hr, bind_ok] at h0
  rw [pure_ok, Except.ok.injEq] at h0
  have key : ∀ n, n ≤ (d.nyend - d.nystart + 1).toNat → ∃ g, src n = .handler g ∧ g.pam = g0.pam := by
    intro n
    induction n with
    | zero => exact fun _ => ⟨g0, h0.symm, rfl⟩
    | succ n ih =>
      intro hn
      obtain ⟨g, hg, hp⟩ := ih (by omega)
      have := hstep n (by omega)
      rw [hg] at this
      obtain ⟨h1, luc, sun, r, h2, -, -, -, e, -, e2⟩ := handler_source this
      exact ⟨h2, e, e2.trans hp⟩
  intro n hn
  obtain ⟨g, hg, hp⟩ := key n (by omega)
  have := hstep n hn
  rw [hg] at this
  obtain ⟨h1, luc, sun, r, h2, -, e2, e3, -, e4, -⟩ := handler_source this
  exact ⟨h1, luc, sun, r, h2, e2, e3, e4.trans hp⟩

/-- With one component asked for, the hemispheric forcings of a year are the split of the total. -/
theorem justOne_split {h h' : Handler ℝ κ} {yr : ℤ} {luc sun : ℝ} {r : ForcResult ℝ}
    (hc : conc2forc h yr luc sun = .ok (r, h')) {k : String} (hj : h.pam.get? "just_one" = some (.str k)) :
    r.nh = r.tot * nhWeight k + sun ∧ r.sh = r.tot * (2 - nhWeight k) + sun := by
  obtain ⟨y0, a0, a1, v, a3, e0, hle, hlt, h0, hi, h1, hv, m3, he⟩ := conc2forc_inv hc
  unfold applyJustOne at m3
  rw [hj] at m3
  simp only [bind_eq_ok] at m3
  obtain ⟨s, hs, m3⟩ := m3
  obtain rfl : k = s := by
    unfold justOneKey at hs
    simp only at hs
    split at hs
    · rw [Except.ok.injEq] at hs
      exact hs
    · cases hs
  rw [pure_ok, Except.ok.injEq] at m3
  unfold finishForc at he
  simp only [Prod.mk.injEq] at he
  obtain ⟨hrr, -⟩ := he
  rw [hemisphericForcing_eq] at m3
  have hz0 : (0.0 : ℝ) = 0 := by norm_num
  constructor
  · rw [hrr, ← m3]; simp only [hz0, zero_add]
  · rw [hrr, ← m3]; simp only [hz0, zero_add]

/-- A run driven by an array completes with every thermal model that keeps working. -/
theorem run_array_works {τ : Type} {cops : CarbonOps ℝ κ} {tops : ThermalOps ℝ τ} {d : Driver ℝ κ} {p : RunPams ℝ}
    (hw : ThermalWorks tops p.udm) {xs : List ℝ} (hs : d.source = .forcing (.array xs)) (hle : d.nystart ≤ d.nyend + 1)
    (hxs : d.nyend - d.nystart < xs.length) (hsun : d.nyend - d.nystart < d.sun.length)
    (hvn : d.nyend - d.nystart < d.volcN.length) (hvs : d.nyend - d.nystart < d.volcS.length)
    (hm : ∀ (k : ℕ) (vn vs : List ℝ), d.volcN[k]? = some vn → d.volcS[k]? = some vs → vn.length = vs.length ∧ vn ≠ []) :
    ∃ d' t', run cops tops d p = .ok (d', t') := by
  obtain ⟨Q, ⟨t, hc, hq⟩, h1, h2⟩ := hw
  refine run_array_inv (fun _ t => Q t) hc hq hs hle hxs hsun hvn hvs ?_
  intro y t x s vn vs _ _ hQ _ _ e1 e2
  obtain ⟨a, b⟩ := hm _ vn vs e1 e2
  exact h2 _ _ _ _ _ (h1 t _ hQ) a b

end

/-! ## The full claim is false for the diffusion model: black carbon alone -/

section
open Verif.Exec Verif.Model.CarbonInst Verif.Lemmas.Tridiag

/-- A run of the diffusion model restricted to one component. -/
theorem single_case (b : Bool) {k : String}
    (hk : YearByYear (richGas : Dict (Gas ℝ)) k)
    (hy : pamI (Factory.checkPamset (F := ℝ) (some [("just_one", .str k)])) "ref_yr" = .ok 2010) : ∃ (h0 : Handler ℝ (IR ℝ)) (d1 : Driver ℝ (IR ℝ)) (t : UDM.Model ℝ)
    (g : Handler ℝ (IR ℝ)), construct irOps (richInputs b) richPam none = .ok h0 ∧
    RunTables (richInputs b).concIn (richInputs b).emis
      (Dict.set (Factory.checkPamset richPam) "conc_run" (.bool (richInputs b).concRun)) 1998 2000 2003 ∧
    run irOps (udmOps exactSolver) (richDriver h0) ⟨some flatSet, some [("just_one", .str k)], none⟩ = .ok (d1, t) ∧
    d1.source = .handler g := by
  obtain ⟨h1, h2, h3, h4, h5⟩ := rich_pams
  obtain ⟨h0, hc, h⟩ := C63_diffusion exactSolver_exact (carb := none) rich_gases (rich_tables b) h1 h2 h3 h4 (by decide)
    (.absent (by decide)) (by simp)
  obtain ⟨d1, hd⟩ := h (richDriver h0) ([] ++ [⟨some flatSet, some [("just_one", .str k)], none⟩]) rfl rfl rfl
    (rich_series h0) (by
    intro p hp
    simp only [List.nil_append, List.mem_singleton] at hp
    subst hp
    refine ⟨⟨_, flat_set, flat_safe⟩, hy, ?_, by simp⟩
    intro v hv
    simp only [Option.getD_some, List.mem_cons, List.not_mem_nil, or_false, Prod.mk.injEq, true_and] at hv
    exact ⟨k, hv, Or.inr hk⟩)
  obtain ⟨d, t, ha, hr⟩ := after_snoc hd
  have := after_nil ha
  subst this
  obtain ⟨g0, g, -, hg, -⟩ := run_handler_spec (rfl : (richDriver h0).source = .handler h0) hr
  exact ⟨h0, d1, t, g, hc, (rich_tables b).run h1 h2 h3, hr, hg⟩

/-- The driver that replays an array over the years of the example. -/
noncomputable def replayDriver {κ : Type} (rf : Forcing ℝ) : Driver ℝ κ :=
  { nystart := 1998, nyend := 2003, source := .forcing rf, feedbackList := none,
    volcN := [[0], [-1], [0], [0], [0], [0]], volcS := [[0], [-1], [0], [0], [0], [0]],
    sun := [1, 1, 1, 1, 1, 1], luc := [], results := [] }

theorem replays {κ κ2 : Type} (h : Handler ℝ κ) (rf : Forcing ℝ) :
    Replays (richDriver h) rf (replayDriver rf : Driver ℝ κ2) :=
  ⟨rfl, rfl, rfl, rfl, rfl, rfl⟩

/-- The full claim for the diffusion model — replaying the reported total gives the same temperatures — is false of the
code: there is a concentration-driven run (black carbon alone, whose forcing is larger in the north) for which the run
driven by the reported total completes, with the same parameters, years, solar and volcanic series, and reports other
surface temperatures. -/
theorem C91_diffusion_false : ∃ (h0 : Handler ℝ (IR ℝ)) (p : RunPams ℝ) (d1 : Driver ℝ (IR ℝ)) (m1 m3 : UDM.Model ℝ)
    (xs : List ℝ) (d2 d3 : Driver ℝ (IR ℝ)), construct irOps (richInputs true) richPam none = .ok h0 ∧
    run irOps (udmOps exactSolver) (richDriver h0) p = .ok (d1, m1) ∧ d1.results.get? "Total_forcing" = some xs ∧
    Replays (richDriver h0) (.array xs) d2 ∧
    run irOps (udmOps exactSolver) d2 p = .ok (d3, m3) ∧
    ¬ SameSeries surfaceSeries d1.results d3.results := by
  obtain ⟨h0, d1, m1, g, hc, ht, hr, hg⟩ := single_case true (k := "BC") ⟨_, rfl, Or.inl rfl, by decide, by decide⟩ rfl
  obtain ⟨_, _, _, _, -, -, -, -, -, -, -, -, ⟨xs, hx, hlen, -⟩, -⟩ := C40_run udm_names hr
  obtain ⟨n1, n2⟩ : d1.nystart = 1998 ∧ d1.nyend = 2003 := by
    obtain ⟨_, _, _, _, -, -, -, -, n1, n2, -⟩ := C40_run udm_names hr
    exact ⟨n1, n2⟩
  rw [n1, n2] at hlen
  have hxs : xs.length = 6 := hlen
  obtain ⟨d3, m3, h3⟩ := run_array_works (cops := irOps) (tops := udmOps exactSolver) (d := replayDriver (.array xs))
    (p := ⟨some flatSet, some [("just_one", .str "BC")], none⟩) (udm_works exactSolver_exact flat_set flat_safe) rfl
    (by simp [replayDriver]) (by rw [hxs]; simp [replayDriver]) (by simp [replayDriver]) (by simp [replayDriver])
    (by simp [replayDriver]) (rich_series h0).months
  refine ⟨h0, _, d1, m1, m3, xs, _, d3, hc, hr, hx, replays h0 _, h3, ?_⟩
  intro hsame
  obtain ⟨f, prev, hf, -, hconv⟩ := C91_diffusion_partial exactSolver_exact hr rfl flat_set C35.flat_physical
    flat_safe.sensitivity rfl hx irOps (replays h0 _) (p2 := ⟨some flatSet, some [("just_one", .str "BC")], none⟩) rfl
  have he := hconv d3 m3 h3 hsame 3 (by simp [richDriver])
  obtain ⟨g0, g', hre, hg', hsm, -⟩ := run_handler_spec (rfl : (richDriver h0).source = .handler h0) hr
  rw [hg, Source.handler.injEq] at hg'
  subst hg'
  have hw : ∀ q ∈ richPam :: ([] ++ [(⟨some flatSet, some [("just_one", .str "BC")], none⟩ : RunPams ℝ)]).map
      RunPams.emiconc, Dict.WF (q.getD []) := by
    intro q hq
    simp only [List.nil_append, List.map_cons, List.map_nil, List.mem_cons, List.not_mem_nil, or_false] at hq
    rcases hq with rfl | rfl <;> simp [richPam, Dict.WF, Dict.keys]
  have hpam : g0.pam.get? "just_one" = some (.str "BC") := by
    obtain ⟨g', hg', e⟩ := justOne_inForce hc rfl (After.next After.fresh hr) hw
    rw [hg, Source.handler.injEq] at hg'
    subst hg'
    rw [← hsm.pam, e]
    rfl
  obtain ⟨h1, luc, sun, r, h2, e1, e2, e3⟩ := hf.handlers rfl hre 3 (by simp [richDriver])
  obtain ⟨s1, s2⟩ := justOne_split e1 (by rw [e3]; exact hpam)
  obtain ⟨k, ek, -, hy⟩ := C80_run (d0 := richDriver h0) (rich_once true).1 (rich_once true).2 udm_names ht hc rfl
    After.fresh hr hg hw (by simp [richDriver]) (v := .str "BC") rfl
  rw [PyVal.str.injEq] at ek
  subst ek
  obtain ⟨tot, sun', w, ⟨c1, m1', a1, v1⟩, -, c3, -⟩ := hy 2001 (by simp [richDriver]) (by simp [richDriver])
  obtain ⟨emis, hem, hv⟩ := rich_emis true
  obtain ⟨c2, m2, a2, v2⟩ := C55_efficiency_counted (d0 := richDriver h0) (rich_once true).1 (rich_once true).2 ht hc rfl
    After.fresh hr hg (y := 2001) (by simp [richDriver]) (by simp [richDriver]) (k := "BC") (by simp [regionalAerosols])
    (x := ⟨"-", 1/3, 0, 0, 0, 0, 0, 1⟩) rfl rfl (by norm_num) hem (hv _ (by decide) _ (by norm_num) (by norm_num))
    (hv _ (by decide) _ (by simp [richDriver]) (by simp [richDriver]))
  have hp : pertOf (richInputs true).pertForc "BC" 2001 = 0 := by simp [richInputs, pertOf, pertSum]
  have hcol : c1 = c2 := (List.inj_on_of_nodup_map
    (reportForcing_nodup (d0 := richDriver h0) (rich_once true).1 (rich_once true).2 (by show _ ∉ richGas.keys; decide) ht hc
      rfl After.fresh hr hg _)) m1' m2
    (a1.trans a2.symm)
  rw [hcol, v2, hp, Option.some.injEq] at v1
  have htot : tot = 1 := by
    rw [← v1]
    simp only [richDriver]
    norm_num
  have hft : (f 3).forc = tot := by
    have := hf.total
    unfold entry at c3
    rw [this, Option.bind_some, List.getElem?_map] at c3
    simpa [richDriver] using c3
  rw [e2] at he hft
  simp only at he hft
  have hwt : nhWeight "BC" = 1.47 := by simp [nhWeight]
  rw [s1, s2, hft, htot, hwt] at he
  norm_num at he

/-- `C91_diffusion_partial`: in a run restricted to CO2 the hemispheres are forced alike, so the run driven by its total
reports the same series. -/
example (b : Bool) : ∃ (h0 : Handler ℝ (IR ℝ)) (d1 : Driver ℝ (IR ℝ)) (d3 : Driver ℝ (IR ℝ)) (m : UDM.Model ℝ)
    (xs : List ℝ), construct irOps (richInputs b) richPam none = .ok h0 ∧
    run irOps (udmOps exactSolver) (richDriver h0) ⟨some flatSet, some [("just_one", .str "CO2")], none⟩ = .ok (d1, m) ∧
    d1.results.get? "Total_forcing" = some xs ∧
    run irOps (udmOps exactSolver) (replayDriver (.array xs)) ⟨some flatSet, none, none⟩ = .ok (d3, m) ∧
    d3.results.get? "dT_NH_air" = d1.results.get? "dT_NH_air" := by
  obtain ⟨h0, d1, m1, g, hc, ht, hr, hg⟩ := single_case b (k := "CO2")
    ⟨_, rfl, Or.inr (Or.inl rfl), by decide, by decide⟩ rfl
  obtain ⟨_, _, _, _, -, -, -, -, -, -, -, -, ⟨xs, hx, -, -⟩, -⟩ := C40_run udm_names hr
  obtain ⟨f, prev, hf, hgo, -⟩ := C91_diffusion_partial exactSolver_exact hr rfl flat_set C35.flat_physical
    flat_safe.sensitivity rfl hx irOps (replays h0 _) (p2 := ⟨some flatSet, none, none⟩) rfl
  obtain ⟨g0, g', hre, hg', hsm, -⟩ := run_handler_spec (rfl : (richDriver h0).source = .handler h0) hr
  rw [hg, Source.handler.injEq] at hg'
  subst hg'
  have hw : ∀ q ∈ richPam :: ([] ++ [(⟨some flatSet, some [("just_one", .str "CO2")], none⟩ : RunPams ℝ)]).map
      RunPams.emiconc, Dict.WF (q.getD []) := by
    intro q hq
    simp only [List.nil_append, List.map_cons, List.map_nil, List.mem_cons, List.not_mem_nil, or_false] at hq
    rcases hq with rfl | rfl <;> simp [richPam, Dict.WF, Dict.keys]
  have hpam : g0.pam.get? "just_one" = some (.str "CO2") := by
    obtain ⟨g', hg', e⟩ := justOne_inForce hc rfl (After.next After.fresh hr) hw
    rw [hg, Source.handler.injEq] at hg'
    subst hg'
    rw [← hsm.pam, e]
    rfl
  obtain ⟨d3, h3, hsame, -⟩ := hgo (by
    intro n hn
    obtain ⟨h1, luc, sun, r, h2, e1, e2, e3⟩ := hf.handlers rfl hre n hn
    obtain ⟨s1, s2⟩ := justOne_split e1 (by rw [e3]; exact hpam)
    have hwt : nhWeight "CO2" = 1 := by simp [nhWeight]
    rw [e2]
    simp only [s1, s2, hwt]
    ring)
  exact ⟨h0, d1, d3, m1, xs, hc, hr, hx, h3, hsame _ (by simp [udmOutputs])⟩

/-- `C91_table` for the diffusion model with all components: the table reproduces the sea surface temperatures. -/
example (b : Bool) : ∃ (h0 : Handler ℝ (IR ℝ)) (d d1 d3 : Driver ℝ (IR ℝ)) (m : UDM.Model ℝ) (p : RunPams ℝ) (t : Frame ℝ),
    construct irOps (richInputs b) richPam none = .ok h0 ∧ run irOps (udmOps exactSolver) d p = .ok (d1, m) ∧
    run irOps (udmOps exactSolver) (replayDriver (.frame t)) ⟨some flatSet, none, none⟩ = .ok (d3, m) ∧
    entry d1.results "Total_forcing" 4 = some (t.cell "total" 2002) ∧
    d3.results.get? "dT_SHsea" = d1.results.get? "dT_SHsea" := by
  obtain ⟨h0, d2, hc, ha⟩ := rich_after_diffusion b
  obtain ⟨d, t, ha, hr⟩ := after_snoc (ps := [_]) ha
  obtain ⟨h', hd', -, -, hsame⟩ := after_spec yearLaw_real (rfl : (richDriver h0).source = .handler h0) ha (fun _ => True)
    trivial (fun _ _ _ _ _ _ _ => trivial) (fun _ _ _ _ _ _ => trivial)
  obtain ⟨tab, -, -, h1, h2⟩ := C91_table udm_names hr hd'
  obtain ⟨d3, h3, h4, -⟩ := h2 irOps (replayDriver (.frame tab)) ⟨some flatSet, none, none⟩ rfl (by
    rw [hsame]; exact ⟨rfl, rfl, rfl, rfl, rfl, rfl⟩)
  have e := (h1 2002 (by rw [hsame]; simp [richDriver]) (by rw [hsame]; simp [richDriver])).1
  refine ⟨h0, d, d2, d3, t, _, tab, hc, hr, h3, ?_, h4 _ (by simp [udmOps, udmOutputs])⟩
  rw [← e, hsame]
  rfl

/-- `C91_two_layer` with all components, in the third run of an instance. -/
example (b : Bool) : ∃ (d d1 : Driver ℝ (BoxM ℝ)) (d3 : Driver ℝ (BoxM ℝ)) (m : TwoLayer.Pams ℝ × TwoLayer.State ℝ)
    (p : RunPams ℝ) (xs : List ℝ), run boxOps twoLayerOps d p = .ok (d1, m) ∧
    d1.results.get? "Total_forcing" = some xs ∧
    run boxOps twoLayerOps (replayDriver (.array xs)) ⟨none, none, none⟩ = .ok (d3, m) ∧
    d3.results.get? "dT_glob" = d1.results.get? "dT_glob" := by
  obtain ⟨h0, d, d1, t, g, hc, ht, ha, hr, hg⟩ := rich_case b
  obtain ⟨h', hd', -, -, hsame⟩ := after_spec yearLaw_real (rfl : (richDriver h0).source = .handler h0) ha (fun _ => True)
    trivial (fun _ _ _ _ _ _ _ => trivial) (fun _ _ _ _ _ _ => trivial)
  obtain ⟨_, _, _, _, -, -, -, -, -, -, -, -, ⟨xs, hx, -, -⟩, -⟩ := C40_run twoLayer_names hr
  obtain ⟨q, hq, hδ⟩ : ∃ q : TwoLayer.Pams ℝ, twoLayerPams (cutAndCheckPamset twoLayerRequired
      ((none : Option (Dict (PyVal ℝ))).getD []) []) = .ok q ∧ q.delta_lambda_aero = 0.0 := ⟨_, rfl, rfl⟩
  obtain ⟨d3, h3, h4, -⟩ := C91_two_layer hr hd' hq (by rw [hδ, sci0]) hx boxOps (d2 := replayDriver (.array xs))
    (by rw [hsame]; exact ⟨rfl, rfl, rfl, rfl, rfl, rfl⟩) (p2 := ⟨none, none, none⟩) rfl
  exact ⟨d, d1, d3, t, _, xs, hr, hx, h3, h4 _ (by simp)⟩

end

end Verif.Props
