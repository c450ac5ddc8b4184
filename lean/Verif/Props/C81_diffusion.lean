import Verif.Props.C91_diffusion
import Verif.Props.C76
import Verif.Spec.DiffusionReport

/-!
# C81 — the energy budget of the diffusion model in the columns of the results

C33, C34 and C76 for whole runs: the columns that a run with the default thermal model reports satisfy the energy balance
at the surface, the heat budget of the ocean and the definition of the imbalance, with the forcing the run reports.
-/

namespace Verif.Props
open Verif.Py Verif.Py.Dict Verif.Model Verif.Model.Handler Verif.Model.Driver Verif.Model.ThermalInst Verif.Spec
open Verif.Spec.Diffusion (Physical feedback meanForcing before capacity ohcUnit year uptake)
open Verif.Spec.Tridiag (Exact)
open Verif.Lemmas.UDM (sci0 sci1 sci2)
open Verif.Props.C76 (C76_temperatures C76_imbalance average)

section
variable {κ : Type}

theorem diffusion_names (solve : UDM.Solver ℝ) : ((udmOps solve).outputs.map Prod.fst ++ forcOutputList).Nodup := by
  simp [udmOps, udmOutputs, forcOutputList]

theorem average_mean (l : List ℝ) : average l = Driver.mean l := by
  unfold average Driver.mean
  rw [fsum_eq_sum]
  simp

/-- The mean forcing of a year whose volcanic row is read a whole number of times. -/
theorem meanForcing_dvd {n : ℕ} (hn : n ≠ 0) (old new : ℝ) {volc : List ℝ} {l : ℕ} (hv : volc.length = l) (hd : l ∣ n) :
    meanForcing n old new l volc = (n + 1) / (2 * n) * new + (n - 1) / (2 * n) * old + average volc := by
  obtain ⟨c, rfl⟩ := hd
  have hl : l ≠ 0 := fun e => hn (by rw [e, Nat.zero_mul])
  have hc : c ≠ 0 := fun e => hn (by rw [e, Nat.mul_zero])
  have h0 := C33_C34.C34_mean_forcing (l * c) hn old new (List.replicate (l * c) 0) (by simp)
  have hs : ∑ k ∈ Finset.range (l * c), volc.getD (k % l) 0 = c * volc.sum := by
    have h1 : ∑ k ∈ Finset.range l, volc.getD k 0 = volc.sum := by
      rw [← hv, ← Fin.sum_univ_getElem, Finset.sum_range]
      refine Finset.sum_congr rfl fun k _ => ?_
      rw [List.getD_eq_getElem?_getD, List.getElem?_eq_getElem k.2]; rfl
    clear h0 hn hc
    induction c with
    | zero => simp
    | succ c ih =>
      rw [Nat.mul_succ, Finset.sum_range_add, ih]
      have : ∑ x ∈ Finset.range l, volc.getD ((l * c + x) % l) 0 = ∑ k ∈ Finset.range l, volc.getD k 0 := by
        refine Finset.sum_congr rfl fun k hk => ?_
        rw [Nat.mul_add_mod, Nat.mod_eq_of_lt (Finset.mem_range.1 hk)]
      rw [this, h1]
      push_cast
      ring
  have hz : ∀ k, (List.replicate (l * c) (0 : ℝ)).getD k 0 = 0 := by
    intro k
    rw [List.getD_eq_getElem?_getD]
    cases e : (List.replicate (l * c) (0 : ℝ))[k]? with
    | none => rfl
    | some x => rw [Option.getD_some]; exact (List.mem_replicate.1 (List.mem_of_getElem? e)).2
  have e1 : meanForcing (l * c) old new l volc =
      meanForcing (l * c) old new (l * c) (List.replicate (l * c) 0) + (c * volc.sum) / ((l * c : ℕ) : ℝ) := by
    unfold meanForcing
    rw [← hs, ← add_div, ← Finset.sum_add_distrib]
    congr 1
    refine Finset.sum_congr rfl fun k _ => ?_
    rw [hz]; ring
  rw [e1, h0]
  unfold average
  rw [hv]
  have hl' : (l : ℝ) ≠ 0 := by exact_mod_cast hl
  have hc' : (c : ℝ) ≠ 0 := by exact_mod_cast hc
  simp only [List.sum_replicate, smul_zero, zero_div, add_zero]
  congr 1
  push_cast
  field_simp

/-- The budget of every year of a run, whatever drives it. -/
theorem diffusion_budget {solve : UDM.Solver ℝ} (hsol : Exact solve) {cops : CarbonOps ℝ κ} {d d1 : Driver ℝ κ}
    {p : RunPams ℝ} {m1 : UDM.Model ℝ} {st : ℤ → UDM.Model ℝ} {src : ℤ → Source ℝ κ} {f : ℤ → YearForcing ℝ}
    {vals : ℤ → Dict ℝ} (c : RunChain cops (udmOps solve) d p d1 m1 st src f vals) {q : UDM.Pams ℝ}
    (hq : udmPams (cutAndCheckPamset udmRequired (p.udm.getD []) []) = .ok q) (hp : Physical q)
    (hv : VolcanicRows q.ldtime d.volcN d.volcS) {y : ℤ} (h1 : d.nystart ≤ y) (h2 : y ≤ d.nyend)
    (hf : 0 < feedback q (f y).wAero) :
    ∃ VN VS, entry d1.results "Volcanic_forcing_NH" (y - d.nystart).toNat = some VN ∧
      entry d1.results "Volcanic_forcing_SH" (y - d.nystart).toNat = some VS ∧
      DiffusionBudget q d1.results (y - d.nystart).toNat (((f y).fn + (f y).fs) / 2)
        (if y = d.nystart then 0 else ((f (y - 1)).fn + (f (y - 1)).fs) / 2) (VN + VS) (feedback q (f y).wAero) := by
  obtain ⟨vn, vs, O, hO, hrun⟩ := diffusion_chain c
  have hcr : UDM.create q = .ok (st d.nystart) := by
    have hcr' : udmCreate p.udm = .ok (st d.nystart) := c.create
    unfold udmCreate at hcr'
    rw [hq, bind_ok] at hcr'
    exact hcr'
  obtain ⟨k, rfl⟩ : ∃ k : ℕ, y = d.nystart + k := ⟨(y - d.nystart).toNat, by omega⟩
  have hi : (d.nystart + (k : ℤ) - d.nystart).toNat = k := by omega
  have hent : ∀ (g : UDM.Out ℝ → ℝ) (o : String × String), o ∈ udmOutputs → (∀ x, (udmOutDict x).get? o.2 = some (g x)) →
      ∀ j : ℕ, d.nystart + (j : ℤ) ≤ d.nyend → entry d1.results o.1 j = some (g (O (d.nystart + j))) := by
    intro g o ho hg j hj
    obtain ⟨a, a1, -, a3⟩ := c.thermal o ho
    obtain ⟨v, v1, v2⟩ := a3 (d.nystart + j) (by rw [c.first]; omega) (by rw [c.last]; exact hj)
    rw [c.first, show (d.nystart + (j : ℤ) - d.nystart).toNat = j by omega] at v1
    rw [(hO _ (by omega) hj).2.2, hg, Option.some.injEq] at v2
    unfold entry
    rw [a1, Option.bind_some, v1, v2]
  have r1 := hrun (k + 1) (by omega)
  rw [List.range_succ, List.map_append, List.map_cons, List.map_nil, List.map_append, List.map_cons, List.map_nil] at r1
  have hT := C76_temperatures hsol hcr r1 (O (d.nystart + k)) (by simp)
  have hI := C76_imbalance hsol hcr r1
  have hG := C33_C34.C34_global_balance hsol hp hcr r1 hf
  obtain ⟨o1, o2, -⟩ := hO _ h1 h2
  have hvn := hv.divides _ (List.mem_of_getElem? (rowOf_eq_ok.1 o1).2)
  have hs := hv.alike _ _ _ (rowOf_eq_ok.1 o1).2 (rowOf_eq_ok.1 o2).2
  have hn1 := hp.steps
  have hn : (vn (d.nystart + k)).length ∣ q.ldtime.toNat := by
    have : ((vn (d.nystart + k)).length : ℤ) ∣ (q.ldtime.toNat : ℤ) := by
      rw [Int.toNat_of_nonneg (by omega)]; exact hvn
    exact_mod_cast this
  have hn0 : q.ldtime.toNat ≠ 0 := by omega
  have hcast : ((q.ldtime.toNat : ℕ) : ℝ) = (q.ldtime : ℝ) := by
    exact_mod_cast Int.toNat_of_nonneg (by omega : 0 ≤ q.ldtime)
  have hl0 : (q.ldtime : ℝ) ≠ 0 := by exact_mod_cast (by omega : q.ldtime ≠ 0)
  have eNH := hent _ ("dT_NH", "dtempnh") (by simp [udmOutputs]) (fun _ => rfl) k h2
  have eSH := hent _ ("dT_SH", "dtempsh") (by simp [udmOutputs]) (fun _ => rfl) k h2
  have eG := hent _ ("dT_glob", "dtemp") (by simp [udmOutputs]) (fun _ => rfl) k h2
  have eGA := hent _ ("dT_glob_air", "dtemp_air") (by simp [udmOutputs]) (fun _ => rfl) k h2
  have eNA := hent _ ("dT_NH_air", "dtempnh_air") (by simp [udmOutputs]) (fun _ => rfl) k h2
  have eSA := hent _ ("dT_SH_air", "dtempsh_air") (by simp [udmOutputs]) (fun _ => rfl) k h2
  have eGS := hent _ ("dT_glob_sea", "dtemp_sea") (by simp [udmOutputs]) (fun _ => rfl) k h2
  have eNS := hent _ ("dT_NH_sea", "dtempnh_sea") (by simp [udmOutputs]) (fun _ => rfl) k h2
  have eSS := hent _ ("dT_SHsea", "dtempsh_sea") (by simp [udmOutputs]) (fun _ => rfl) k h2
  have eR := hent _ ("RIB_glob", "RIB") (by simp [udmOutputs]) (fun _ => rfl) k h2
  have eO := hent _ ("OHCTOT", "OHCTOT") (by simp [udmOutputs]) (fun _ => rfl)
  simp only at eNH eSH eG eGA eNA eSA eGS eNS eSS eR eO
  have hflux : airSeaFlux q d1.results k = uptake q (O (d.nystart + k)) := by
    unfold airSeaFlux uptake now
    rw [eNA, eSA, eNS, eSS]
    rfl
  have hprev : ∀ g : UDM.Year ℝ → ℝ, before ((List.range k).map (fun j : ℕ => (⟨(f (d.nystart + j)).wAero,
      (f (d.nystart + j)).fn, (f (d.nystart + j)).fs, vn (d.nystart + j), vs (d.nystart + j)⟩ : UDM.Year ℝ))) g =
      if k = 0 then 0 else g ⟨(f (d.nystart + (k : ℤ) - 1)).wAero, (f (d.nystart + (k : ℤ) - 1)).fn,
        (f (d.nystart + (k : ℤ) - 1)).fs, vn (d.nystart + (k : ℤ) - 1), vs (d.nystart + (k : ℤ) - 1)⟩ := by
    intro g
    rw [before_map]
    by_cases hk : k = 0
    · rw [if_pos hk, if_pos hk]
    · rw [if_neg hk, if_neg hk, show d.nystart + ((k - 1 : ℕ) : ℤ) = d.nystart + (k : ℤ) - 1 by omega]
  have hbef : before ((List.range k).map (fun j : ℕ => O (d.nystart + j))) UDM.Out.OHCTOT = earlier d1.results "OHCTOT" k := by
    unfold earlier now
    cases k with
    | zero => rfl
    | succ k =>
      rw [if_neg (by omega), Nat.add_sub_cancel, eO k (by push_cast at h2; omega)]
      unfold before
      rw [List.range_succ, List.map_append, List.map_cons, List.map_nil, List.getLast?_append_cons]
      simp
  refine ⟨_, _, by
      obtain ⟨a, a1, -, a3⟩ := c.north
      obtain ⟨v, v1, row, v2, v3⟩ := a3 (d.nystart + k) (by rw [c.first]; omega) (by rw [c.last]; exact h2)
      rw [o1, Except.ok.injEq] at v2
      rw [c.first] at v1
      unfold entry
      rw [a1, Option.bind_some, v1, v3, ← v2],
    by
      obtain ⟨a, a1, -, a3⟩ := c.south
      obtain ⟨v, v1, row, v2, v3⟩ := a3 (d.nystart + k) (by rw [c.first]; omega) (by rw [c.last]; exact h2)
      rw [o2, Except.ok.injEq] at v2
      rw [c.first] at v1
      unfold entry
      rw [a1, Option.bind_some, v1, v3, ← v2], ?_⟩
  rw [hi]
  have hks : (d.nystart + (k : ℤ) = d.nystart) = (k = 0) := propext ⟨fun e => by omega, fun e => by omega⟩
  constructor
  · intro o ho
    simp only [budgetSeries, List.mem_cons, List.not_mem_nil, or_false] at ho
    rcases ho with rfl | rfl | rfl | rfl | rfl | rfl | rfl | rfl | rfl | rfl | rfl
    all_goals first
      | exact ⟨_, eR⟩ | exact ⟨_, eG⟩ | exact ⟨_, eNH⟩ | exact ⟨_, eSH⟩ | exact ⟨_, eGA⟩ | exact ⟨_, eNA⟩ | exact ⟨_, eSA⟩
      | exact ⟨_, eGS⟩ | exact ⟨_, eNS⟩ | exact ⟨_, eSS⟩ | exact ⟨_, eO k h2⟩
  · rw [hflux, hG, hprev, hprev]
    simp only
    rw [meanForcing_dvd hn0 _ _ rfl hn, meanForcing_dvd hn0 _ _ hs.symm hn, hcast]
    unfold now
    rw [eNA, eSA, ← average_mean, ← average_mean]
    simp only [Option.getD_some, hks]
    split <;> field_simp <;> ring
  · intro he hb
    rw [hflux, ← hbef]
    unfold now
    rw [eO k h2]
    exact C33_C34.C33_heat_budget hsol hp he hb hcr r1 hf
  · intro he
    obtain ⟨i1, i2, i3, i4⟩ := hI
    unfold now
    rw [eR, eG, ← average_mean, ← average_mean]
    simp only [Option.getD_some]
    rw [i1, i2, i3, i4, he, hT.1]
    ring
  all_goals
    unfold now
    simp only [eNH, eSH, eG, eGA, eNA, eSA, eGS, eNS, eSS, Option.getD_some]
    simp only [hT]

theorem RunChain.forced {τ : Type} {cops : CarbonOps ℝ κ} {tops : ThermalOps ℝ τ} {d d1 : Driver ℝ κ} {p : RunPams ℝ}
    {t1 : τ} {st : ℤ → τ} {src : ℤ → Source ℝ κ} {f : ℤ → YearForcing ℝ} {vals : ℤ → Dict ℝ}
    (c : RunChain cops tops d p d1 t1 st src f vals) :
    ForcedBy cops d d1 p (fun n : ℕ => f (d.nystart + n)) (fun n : ℕ => if d.nystart + (n : ℤ) = d.nystart then none
      else some (vals (d.nystart + n - 1))) := by
  refine ⟨⟨fun n : ℕ => src (d.nystart + n), by simpa using c.reset, ?_, ?_⟩, ?_⟩
  · have := c.order
    beta_reduce
    rw [c.source, show d.nystart + ((d.nyend - d.nystart + 1).toNat : ℤ) = d.nyend + 1 by omega]
  · intro n hn
    have := c.forcing (d.nystart + n) (by omega) (by omega)
    beta_reduce
    rw [show d.nystart + ((n + 1 : ℕ) : ℤ) = d.nystart + n + 1 by push_cast; ring]
    exact this
  · have := series_list (g := fun y => (f y).forc) c.total
    rw [this, c.first, c.last]

/-- **C81**, energy budget of emission- and concentration-driven runs of the diffusion model, after any history. `f` are
the forcings of the years of the run. In every year whose feedback is positive the reported temperatures, imbalance and
heat content close the energy budget with the forcing the run reports: total plus solar, and volcanic. -/
theorem C81_diffusion_emission_budget {solve : UDM.Solver ℝ} (hsol : Exact solve) {cops : CarbonOps ℝ κ} {d d1 : Driver ℝ κ}
    {p : RunPams ℝ} {m1 : UDM.Model ℝ} {h0 : Handler ℝ κ} (h : run cops (udmOps solve) d p = .ok (d1, m1))
    (hs : d.source = .handler h0) {q : UDM.Pams ℝ}
    (hq : udmPams (cutAndCheckPamset udmRequired (p.udm.getD []) []) = .ok q) (hp : Physical q)
    (hv : VolcanicRows q.ldtime d.volcN d.volcS) :
    ∃ (f : ℕ → YearForcing ℝ) (prev : ℕ → Option (Dict ℝ)), ForcedBy cops d d1 p f prev ∧
      ∀ n < (d.nyend - d.nystart + 1).toNat, 0 < feedback q (f n).wAero →
        (∀ o ∈ forcOutputList, ∃ v, entry d1.results o n = some v) ∧
        DiffusionBudget q d1.results n (now d1.results "Total_forcing" n + now d1.results "Solar_forcing" n)
          (earlier d1.results "Total_forcing" n + earlier d1.results "Solar_forcing" n)
          (now d1.results "Volcanic_forcing_NH" n + now d1.results "Volcanic_forcing_SH" n) (feedback q (f n).wAero) := by
  obtain ⟨st, src, f, vals, c⟩ := run_chain (diffusion_names solve) h
  refine ⟨_, _, c.forced, fun n hn hf => ?_⟩
  have h1 : d.nystart ≤ d.nystart + (n : ℤ) := by omega
  have h2 : d.nystart + (n : ℤ) ≤ d.nyend := by omega
  have hi : ∀ k : ℕ, (d.nystart + (k : ℤ) - d.nystart).toNat = k := by intro k; omega
  obtain ⟨VN, VS, e1, e2, B⟩ := diffusion_budget hsol c hq hp hv h1 h2 hf
  have hF : ∀ k : ℕ, d.nystart + (k : ℤ) ≤ d.nyend → (∃ v, entry d1.results "Total_forcing" k = some v) ∧
      (∃ v, entry d1.results "Solar_forcing" k = some v) ∧
      ((f (d.nystart + k)).fn + (f (d.nystart + k)).fs) / 2 =
        now d1.results "Total_forcing" k + now d1.results "Solar_forcing" k := by
    intro k hk
    obtain ⟨s, -, a1, a2, a3⟩ := c.mean hs (y := d.nystart + k) (by omega) hk
    rw [hi] at a2 a3
    refine ⟨⟨_, a2⟩, ⟨_, a3⟩, ?_⟩
    unfold now
    rw [a1, a2, a3]
    rfl
  have hE : (if d.nystart + (n : ℤ) = d.nystart then 0 else ((f (d.nystart + n - 1)).fn + (f (d.nystart + n - 1)).fs) / 2) =
      earlier d1.results "Total_forcing" n + earlier d1.results "Solar_forcing" n := by
    unfold earlier
    by_cases h0 : n = 0
    · rw [if_pos (by omega), if_pos h0, if_pos h0, add_zero]
    · rw [if_neg (by omega), if_neg h0, if_neg h0, ← (hF (n - 1) (by omega)).2.2,
        show d.nystart + ((n - 1 : ℕ) : ℤ) = d.nystart + n - 1 by omega]
  rw [hi] at e1 e2 B
  obtain ⟨p1, p2, p3⟩ := hF n h2
  refine ⟨?_, ?_⟩
  · intro o ho
    simp only [forcOutputList, List.mem_cons, List.not_mem_nil, or_false] at ho
    rcases ho with rfl | rfl | rfl | rfl
    all_goals first | exact p1 | exact p2 | exact ⟨_, e1⟩ | exact ⟨_, e2⟩
  · have hV : now d1.results "Volcanic_forcing_NH" n + now d1.results "Volcanic_forcing_SH" n = VN + VS := by
      unfold now
      rw [e1, e2]
      rfl
    rw [← p3, ← hE, hV]
    exact B

/-- **C81**, energy budget of runs of the diffusion model driven by an array: likewise; the reported total already
contains the solar forcing, and the feedback is one over the parameter `lambda`. -/
theorem C81_diffusion_array_budget {solve : UDM.Solver ℝ} (hsol : Exact solve) {cops : CarbonOps ℝ κ} {d d1 : Driver ℝ κ}
    {p : RunPams ℝ} {m1 : UDM.Model ℝ} {xs : List ℝ} (h : run cops (udmOps solve) d p = .ok (d1, m1))
    (hs : d.source = .forcing (.array xs)) {q : UDM.Pams ℝ}
    (hq : udmPams (cutAndCheckPamset udmRequired (p.udm.getD []) []) = .ok q) (hp : Physical q) (hl : 0 < q.lambda)
    (hv : VolcanicRows q.ldtime d.volcN d.volcS) :
    ∀ n < (d.nyend - d.nystart + 1).toNat, ∃ x, xs[n]? = some x ∧
      now d1.results "Total_forcing" n = x + now d1.results "Solar_forcing" n ∧
      DiffusionBudget q d1.results n (now d1.results "Total_forcing" n) (earlier d1.results "Total_forcing" n)
        (now d1.results "Volcanic_forcing_NH" n + now d1.results "Volcanic_forcing_SH" n) (1 / q.lambda) := by
  obtain ⟨st, src, f, vals, c⟩ := run_chain (diffusion_names solve) h
  intro n hn
  have h1 : d.nystart ≤ d.nystart + (n : ℤ) := by omega
  have h2 : d.nystart + (n : ℤ) ≤ d.nyend := by omega
  have hi : ∀ k : ℕ, (d.nystart + (k : ℤ) - d.nystart).toNat = k := by intro k; omega
  have hsrc : ∀ k : ℕ, d.nystart + k ≤ d.nyend + 1 → src (d.nystart + k) = .forcing (.array xs) := by
    intro k
    induction k with
    | zero =>
      intro _
      have := c.reset
      rw [hs] at this
      simpa [resetSource] using this.symm
    | succ k ih =>
      intro hk
      have := c.forcing (d.nystart + k) (by omega) (by omega)
      rw [ih (by omega)] at this
      rw [show d.nystart + ((k + 1 : ℕ) : ℤ) = d.nystart + k + 1 by push_cast; ring]
      exact (forcing_source this).2
  have hF : ∀ k : ℕ, d.nystart + (k : ℤ) ≤ d.nyend → ∃ x, xs[k]? = some x ∧
      now d1.results "Total_forcing" k = x + now d1.results "Solar_forcing" k ∧
      ((f (d.nystart + k)).fn + (f (d.nystart + k)).fs) / 2 = now d1.results "Total_forcing" k ∧
      (f (d.nystart + k)).wAero = 0 := by
    intro k hk
    have e := c.forcing (d.nystart + k) (by omega) hk
    rw [hsrc k (by omega)] at e
    have e := (forcing_source e).1
    unfold forcSet prescribed at e
    simp only [bind_eq_ok] at e
    obtain ⟨r, ⟨x, hx, hr⟩, s, hsun, e⟩ := e
    rw [pure_ok, Except.ok.injEq] at hr e
    subst hr
    have t := series_entry (g := fun y => (f y).forc) c.total (y := d.nystart + k) (by rw [c.first]; omega) (by rw [c.last]; exact hk)
    rw [c.first, hi, ← e] at t
    obtain ⟨b, b1, -, b3⟩ := c.solar
    obtain ⟨v, v1, v2⟩ := b3 (d.nystart + k) (by rw [c.first]; omega) (by rw [c.last]; exact hk)
    rw [hsun, Except.ok.injEq] at v2
    rw [c.first, hi] at v1
    have u : entry d1.results "Solar_forcing" k = some s := by
      unfold entry
      rw [b1, Option.bind_some, v1, v2]
    have hx' := (rowOf_eq_ok.1 hx).2
    rw [hi] at hx'
    refine ⟨x, hx', ?_, ?_, ?_⟩
    · unfold now
      rw [t, u]
      rfl
    · unfold now
      rw [t, ← e]
      simp
    · rw [← e]
      exact sci0
  obtain ⟨x, hx, ht, hm, hw⟩ := hF n h2
  have hfb : feedback q (f (d.nystart + n)).wAero = 1 / q.lambda := by
    unfold feedback
    rw [hw, zero_mul, add_zero]
  obtain ⟨VN, VS, e1, e2, B⟩ := diffusion_budget hsol c hq hp hv h1 h2 (by rw [hfb]; exact one_div_pos.2 hl)
  have hE : (if d.nystart + (n : ℤ) = d.nystart then 0 else ((f (d.nystart + n - 1)).fn + (f (d.nystart + n - 1)).fs) / 2) =
      earlier d1.results "Total_forcing" n := by
    unfold earlier
    by_cases h0 : n = 0
    · rw [if_pos (by omega), if_pos h0]
    · obtain ⟨-, -, -, e, -⟩ := hF (n - 1) (by omega)
      rw [if_neg (by omega), if_neg h0, ← e, show d.nystart + ((n - 1 : ℕ) : ℤ) = d.nystart + n - 1 by omega]
  rw [hi] at e1 e2 B
  have hV : now d1.results "Volcanic_forcing_NH" n + now d1.results "Volcanic_forcing_SH" n = VN + VS := by
    unfold now
    rw [e1, e2]
    rfl
  refine ⟨x, hx, ht, ?_⟩
  rw [← hE, hV, ← hm, ← hfb]
  exact B

end

/-! ## The hypotheses are met -/

section
open Verif.Exec Verif.Model.CarbonInst Verif.Lemmas.Tridiag

theorem hot_rows (n : ℕ) : VolcanicRows (12 : ℤ) (hotDriver n).volcN (hotDriver n).volcS := by
  constructor
  · intro i a b ha hb
    have h1 := (List.mem_replicate.1 (List.mem_of_getElem? ha)).2
    have h2 := (List.mem_replicate.1 (List.mem_of_getElem? hb)).2
    rw [h1, h2]
    simp
  · intro row hr
    rw [(List.mem_replicate.1 hr).2]
    simp

/-- Default parameters, an array of any length: the budget closes in every year. -/
example (n : ℕ) : ∃ d' m, run noCarbon (udmOps exactSolver) (hotDriver n) ⟨none, none, none⟩ = .ok (d', m) ∧
    ∀ k < n, DiffusionBudget C78.usualPams d'.results k (now d'.results "Total_forcing" k) (earlier d'.results "Total_forcing" k)
      (now d'.results "Volcanic_forcing_NH" k + now d'.results "Volcanic_forcing_SH" k) (1 / 0.61) := by
  obtain ⟨d', m, h, -⟩ := hot_runs n
  refine ⟨d', m, h, fun k hk => ?_⟩
  have hl : C78.usualPams.lambda = 0.61 := by simp only [C78.usualPams, C35.flatPams]
  obtain ⟨x, -, -, B⟩ := C81_diffusion_array_budget exactSolver_exact h rfl usual_set C78.usual_physical
    (by rw [hl]; norm_num) (by exact hot_rows n) k (by simp only [hotDriver]; omega)
  rw [hl] at B
  exact B

/-- The second of two runs with all kinds of gases, emission-driven or driven by concentrations. -/
example (b : Bool) : ∃ (h0 : Handler ℝ (IR ℝ)) (d d1 : Driver ℝ (IR ℝ)) (m : UDM.Model ℝ),
    construct irOps (richInputs b) richPam none = .ok h0 ∧
    run irOps (udmOps exactSolver) d ⟨some flatSet, none, some [("beta_f", .flt 1)]⟩ = .ok (d1, m) ∧
    DiffusionBudget C35.flatPams d1.results 4 (now d1.results "Total_forcing" 4 + now d1.results "Solar_forcing" 4)
      (earlier d1.results "Total_forcing" 4 + earlier d1.results "Solar_forcing" 4)
      (now d1.results "Volcanic_forcing_NH" 4 + now d1.results "Volcanic_forcing_SH" 4) (1 / 0.61) := by
  obtain ⟨h0, d1, hc, ha⟩ := rich_after_diffusion b
  obtain ⟨d, m, ha, hr⟩ := after_snoc (ps := [⟨some flatSet, none, none⟩]) ha
  obtain ⟨g, hg, -, -, hsame⟩ := after_spec yearLaw_real (d0 := richDriver h0) rfl ha (fun _ => True) trivial
      (fun _ _ _ _ _ _ _ => trivial) (fun _ _ _ _ _ _ => trivial)
  have hv : VolcanicRows C35.flatPams.ldtime d.volcN d.volcS := by
    rw [hsame]
    have hl : C35.flatPams.ldtime = 12 := rfl
    rw [hl]
    have h1 : ∀ row ∈ (richDriver h0).volcN, row.length = 1 := by
      intro row hr
      simp only [richDriver, List.mem_cons, List.not_mem_nil, or_false] at hr
      rcases hr with rfl | rfl | rfl | rfl | rfl | rfl <;> rfl
    have h2 : ∀ row ∈ (richDriver h0).volcS, row.length = 1 := by
      intro row hr
      simp only [richDriver, List.mem_cons, List.not_mem_nil, or_false] at hr
      rcases hr with rfl | rfl | rfl | rfl | rfl | rfl <;> rfl
    exact ⟨fun i a b ha hb => (h1 a (List.mem_of_getElem? ha)).trans (h2 b (List.mem_of_getElem? hb)).symm,
      fun row hr => by rw [h1 row hr]; norm_num⟩
  have hfb : ∀ w, feedback C35.flatPams w = 1 / 0.61 := by
    intro w
    simp only [feedback, C35.flatPams]
    norm_num
  obtain ⟨f, prev, -, B⟩ := C81_diffusion_emission_budget exactSolver_exact hr hg flat_set C35.flat_physical hv
  refine ⟨h0, d, d1, m, hc, hr, ?_⟩
  have := (B 4 (by rw [hsame]; simp [richDriver]) (by rw [hfb]; norm_num)).2
  rw [hfb] at this
  exact this

end
end Verif.Props
