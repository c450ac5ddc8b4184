import Verif.Props.C06_run
import Verif.Props.C91_diffusion
import Verif.Spec.Hemispheres

/-!
# The hemispheric forcings of a year in terms of the reported components
-/

namespace Verif.Props
open Verif.Py Verif.Py.Dict Verif.Model Verif.Model.Handler Verif.Model.Driver Verif.Spec

variable {κ τ : Type}

/-- What the loop over the components adds to the hemispheres. -/
theorem forcLoop_weighted {h : Handler ℝ κ} {yr : ℤ} {luc : ℝ} {i : ℕ} :
    ∀ (ks : List String) (a a' : Acc ℝ), ks.Nodup → ks.foldlM (forcStep h yr luc i) a = .ok a' →
      a'.nh = a.nh + ((worked ks).map (fun t => a'.forc t i * nhWeight t)).sum ∧
      a'.sh = a.sh + ((worked ks).map (fun t => a'.forc t i * (2 - nhWeight t))).sum
  | [], a, a', _, hf => by
    rw [foldlM_nil_ok] at hf
    subst hf
    simp [worked]
  | t :: ks, a, a', hnd, hf => by
    obtain ⟨b, h1, h2⟩ := foldlM_cons_ok.1 hf
    obtain ⟨hnt, hnd'⟩ := List.nodup_cons.1 hnd
    obtain ⟨i1, i2⟩ := forcLoop_weighted ks b a' hnd' h2
    by_cases ht : t ∈ ["CO2", "N2O", "CH4"]
    · rw [forcStep_main ht, Except.ok.injEq] at h1
      subst h1
      have hw : worked (t :: ks) = worked ks := by
        unfold worked; rw [List.filter_cons_of_neg]; rw [decide_eq_true_eq]; exact fun h => h ht
      rw [hw]
      exact ⟨i1, i2⟩
    · have hw : worked (t :: ks) = t :: worked ks := by
        unfold worked; rw [List.filter_cons_of_pos]; rw [decide_eq_true_eq]; exact ht
      have hnw : t ∉ worked ks := fun hm => hnt (List.mem_filter.1 hm).1
      unfold forcStep at h1
      rw [if_neg ht, bind_eq_ok] at h1
      obtain ⟨⟨q, c⟩, -, h1⟩ := h1
      rw [pure_ok, Except.ok.injEq] at h1
      have hq : a'.forc t i = q := by
        rw [(forcLoop_spec ks b a' hnd' h2).1 t i (Or.inl hnw), ← h1]; simp [setForc]
      have e1 : b.nh = a.nh + q * nhWeight t := by rw [← h1, C05_weights]
      have e2 : b.sh = a.sh + q * (2 - nhWeight t) := by rw [← h1, C05_weights]
      rw [hw, i1, i2, e1, e2, List.map_cons, List.map_cons, List.sum_cons, List.sum_cons, hq]
      constructor <;> ring

/-- What forcing perturbations add to the hemispheres. -/
theorem pert_weighted (ks : List String) (hnd : ks.Nodup) (y0 yr : ℤ) : ∀ (rows : List (PertRow ℝ)) (s : ForcAcc ℝ),
    (addForcingPert rows ks y0 yr s).nh = s.nh + (ks.map (fun t => pertSum rows t yr * nhWeight t)).sum ∧
    (addForcingPert rows ks y0 yr s).sh = s.sh + (ks.map (fun t => pertSum rows t yr * (2 - nhWeight t))).sum
  | [], s => by simp [addForcingPert, pertSum]
  | r :: rows, s => by
    have step : addForcingPert (r :: rows) ks y0 yr s = addForcingPert rows ks y0 yr
        (if r.year = yr then addForcingPertStep ks (yr - y0).toNat s r else s) := by
      unfold addForcingPert
      by_cases h : r.year = yr
      · rw [List.filter_cons_of_pos (by simpa using h), List.foldl_cons, if_pos h]
      · rw [List.filter_cons_of_neg (by simpa using h), if_neg h]
    obtain ⟨i1, i2⟩ := pert_weighted ks hnd y0 yr rows (if r.year = yr then addForcingPertStep ks (yr - y0).toNat s r else s)
    have key : ∀ w : String → ℝ, (ks.map (fun t => pertSum (r :: rows) t yr * w t)).sum =
        (if r.year = yr ∧ r.component ∈ ks then r.value * w r.component else 0) +
          (ks.map (fun t => pertSum rows t yr * w t)).sum := by
      intro w
      have : (fun t => pertSum (r :: rows) t yr * w t) =
          fun t => (if r.component = t ∧ r.year = yr then r.value * w r.component else 0) + pertSum rows t yr * w t := by
        funext t
        rw [pertSum_cons, add_mul]
        congr 1
        split
        · rename_i h; rw [h.1]
        · rw [zero_mul]
      rw [this, List.sum_map_add]
      congr 1
      rw [← List.sum_toFinset _ hnd]
      by_cases hy : r.year = yr
      · simp only [hy, and_true, true_and]
        rw [Finset.sum_ite_eq]
        simp
      · simp [hy]
    rw [step, i1, i2, key, key]
    by_cases hy : r.year = yr
    · rw [if_pos hy]
      unfold addForcingPertStep
      by_cases hk : r.component ∈ ks
      · rw [if_neg (not_not.2 hk), if_pos ⟨hy, hk⟩, if_pos ⟨hy, hk⟩]
        simp only
        rw [C05_weights]
        constructor <;> simp only <;> ring
      · rw [if_pos hk, if_neg (fun h => hk h.2), if_neg (fun h => hk h.2)]
        simp
    · rw [if_neg hy, if_neg (fun h => hy h.1), if_neg (fun h => hy h.1)]
      simp

/-- The hemispheric forcings of a year: the components with their weights, the gases computed ahead, perturbations of the
total, and the sun. -/
theorem conc2forc_weighted {h h' : Handler ℝ κ} {yr y0 : ℤ} {luc sun : ℝ} {r : ForcResult ℝ}
    (hc : conc2forc h yr luc sun = .ok (r, h')) (hy0 : h.y0 = .ok y0)
    (hk : h.forcKeys.Nodup) (hT : "Total_forcing" ∈ h.forcKeys)
    (hg : h.gas.get? "Total_forcing" = none) (hj : h.pam.get? "just_one" = none) :
    r.nh = ((h.forcKeys.filter (fun t => t ≠ "Total_forcing")).map
        (fun t => h'.forc t (yr - y0).toNat * nhWeight t)).sum +
      (h.prec.erf.cols.map (fun c => (h.prec.erf.val c yr).getD 0)).sum + totalPert h yr + sun ∧
    r.sh = ((h.forcKeys.filter (fun t => t ≠ "Total_forcing")).map
        (fun t => h'.forc t (yr - y0).toNat * (2 - nhWeight t))).sum +
      (h.prec.erf.cols.map (fun c => (h.prec.erf.val c yr).getD 0)).sum + totalPert h yr + sun := by
  obtain ⟨y0', a0, a1, v, a3, e0, hle, hlt, h0, hi, h1, hv, h3, he⟩ := conc2forc_inv hc
  rw [hy0] at e0
  obtain rfl : y0 = y0' := by simpa using e0
  obtain ⟨hvs, -⟩ := totVanilla_spec hv
  rw [← hvs]
  obtain ⟨i', hi', k1, k2, k3, t1, t2, -, -, -⟩ := threeMain_spec h0
  rw [hi] at hi'
  obtain rfl : (yr - y0).toNat = i' := by simpa using hi'
  have t3 : a0.nh = a0.tot ∧ a0.sh = a0.tot := by
    unfold threeMain at h0
    simp only [bind_eq_ok] at h0
    obtain ⟨_, _, _, _, _, _, _, _, _, _, _, _, _, _, _, _, _, _, _, _, _, _, _, _, _, _, _, _, h0⟩ := h0
    rw [pure_ok, Except.ok.injEq] at h0
    rw [← h0, C05_weights]
    have : nhWeight "three_main" = 1 := by unfold nhWeight; simp
    simp only [this]
    constructor <;> norm_num
  obtain ⟨l1, -, -, -⟩ := forcLoop_spec _ _ _ hk h1
  obtain ⟨w1, w2⟩ := forcLoop_weighted _ _ _ hk h1
  have hz := forcLoop_total_zero hg _ _ _ hk hT h1
  have hm : ∀ t ∈ ["CO2", "N2O", "CH4"], a1.forc t (yr - y0).toNat = a0.forc t (yr - y0).toNat := by
    intro t ht
    refine l1 t _ (Or.inl fun hw => ?_)
    have := (List.mem_filter.1 hw).2
    simp only [decide_eq_true_eq] at this
    exact this ht
  have hone : nhWeight "CO2" = 1 ∧ nhWeight "N2O" = 1 ∧ nhWeight "CH4" = 1 ∧ nhWeight "Total_forcing" = 1 := by
    unfold nhWeight; simp
  obtain ⟨o1, o2, o3, o4⟩ := hone
  have n1 : a1.nh = (h.forcKeys.map (fun t => a1.forc t (yr - y0).toNat * nhWeight t)).sum := by
    rw [sum_split_main h.forcKeys hk k1 k3 k2 (fun t => a1.forc t (yr - y0).toNat * nhWeight t), w1, t3.1, t1, hm "CO2" (by simp),
      hm "N2O" (by simp), hm "CH4" (by simp), o1, o2, o3]
    ring
  have n2 : a1.sh = (h.forcKeys.map (fun t => a1.forc t (yr - y0).toNat * (2 - nhWeight t))).sum := by
    rw [sum_split_main h.forcKeys hk k1 k3 k2 (fun t => a1.forc t (yr - y0).toNat * (2 - nhWeight t)), w2, t3.2, t1,
      hm "CO2" (by simp), hm "N2O" (by simp), hm "CH4" (by simp), o1, o2, o3]
    ring
  unfold applyJustOne at h3
  rw [hj, Except.ok.injEq] at h3
  unfold finishForc at he
  simp only [Prod.mk.injEq] at he
  obtain ⟨hr, hh'⟩ := he
  have hf : ∀ t, t ≠ "Total_forcing" → h'.forc t (yr - y0).toNat = a3.forc t (yr - y0).toNat := by
    intro t ht
    rw [hh']
    simp [setForc, ht]
  have hl : ∀ w : String → ℝ, (h.forcKeys.filter (fun t => t ≠ "Total_forcing")).map
      (fun t => h'.forc t (yr - y0).toNat * w t) = (h.forcKeys.filter (fun t => t ≠ "Total_forcing")).map
      (fun t => a3.forc t (yr - y0).toNat * w t) := by
    intro w
    apply List.map_congr_left
    intro t ht
    rw [hf t (by simpa using (List.mem_filter.1 ht).2)]
  rw [hl, hl, hr]
  simp only
  have hcut : ∀ w : String → ℝ, (h.forcKeys.map (fun t => a1.forc t (yr - y0).toNat * w t)).sum =
      ((h.forcKeys.filter (fun t => t ≠ "Total_forcing")).map (fun t => a1.forc t (yr - y0).toNat * w t)).sum := fun w =>
    sum_filter_ne _ _ _ (by rw [hz, zero_mul])
  cases hpert : h.pert with
  | none =>
    have htp : totalPert h yr = 0 := by unfold totalPert; rw [hpert]
    simp only [addPert, hpert] at h3
    rw [← h3, htp]
    simp only
    rw [n1, n2, hcut, hcut]
    constructor <;> ring
  | some rows =>
    have htp : totalPert h yr = pertSum rows "Total_forcing" yr := by unfold totalPert; rw [hpert]
    simp only [addPert, hpert] at h3
    obtain ⟨p1, p2⟩ := pert_weighted h.forcKeys hk y0 yr rows ⟨a1.tot + v, a1.nh + v, a1.sh + v, a1.forc⟩
    have c3 : ∀ w : String → ℝ, (h.forcKeys.filter (fun t => t ≠ "Total_forcing")).map
        (fun t => (addForcingPert rows h.forcKeys y0 yr ⟨a1.tot + v, a1.nh + v, a1.sh + v, a1.forc⟩).forc t (yr - y0).toNat * w t) =
        (h.forcKeys.filter (fun t => t ≠ "Total_forcing")).map
        (fun t => a1.forc t (yr - y0).toNat * w t + pertSum rows t yr * w t) := by
      intro w
      apply List.map_congr_left
      intro t ht
      rw [C09_component rows h.forcKeys y0 yr _ t (List.mem_filter.1 ht).1, add_mul]
    have hsT : ∀ w : String → ℝ, (h.forcKeys.map (fun t => pertSum rows t yr * w t)).sum =
        ((h.forcKeys.filter (fun t => t ≠ "Total_forcing")).map (fun t => pertSum rows t yr * w t)).sum
          + pertSum rows "Total_forcing" yr * w "Total_forcing" := fun w => sum_filter_ne_mem _ _ _ hk hT
    rw [← h3, htp]
    simp only
    rw [p1, p2, c3, c3, List.sum_map_add, List.sum_map_add, n1, n2, hcut, hcut, hsT, hsT, o4]
    constructor <;> ring

theorem reportName_total (k : String) : reportName k = "Total_forcing" ↔ k = "Total_forcing" := by
  unfold reportName
  by_cases hk : k = "SO2"
  · subst hk; simp
  · simp [hk]

theorem columnWeight_report {k : String} (hk : k ≠ "SO4_DIR") : columnWeight (reportName k) = nhWeight k := by
  unfold reportName columnWeight
  by_cases h : k = "SO2"
  · subst h; simp [nhWeight]
  · simp [h, hk]

/-- What the hemispheric theorems need to know of the handler after a run. -/
structure Settled (i : Inputs ℝ) (ns ne : ℤ) (g : Handler ℝ κ) : Prop where
  keys : g.forcKeys.Nodup
  total : "Total_forcing" ∈ g.forcKeys
  erf : "Total_forcing" ∉ g.prec.erf.cols
  gasT : g.gas.get? "Total_forcing" = none
  just : g.pam.get? "just_one" = none
  years : g.years = pyRange ns (ne + 1)
  order : ns ≤ ne
  pert : g.pert = i.pertForc
  weights : ∀ c ∈ g.prec.erf.cols, columnWeight (reportName c) = 1
  noDir : "SO4_DIR" ∉ g.forcKeys

/-- Sum of the reported components of a year, each with a weight. -/
theorem weighted_columns {i : Inputs ℝ} {ns ne y : ℤ} {g : Handler ℝ κ} (S : Settled i ns ne g) (hy1 : ns ≤ y) (hy2 : y ≤ ne)
    (w : ℝ → ℝ) (hw : w 1 = 1) :
    ((componentColumns g ns).map (fun c => (c.2 y).getD 0 * w (columnWeight c.1))).sum =
      ((g.forcKeys.filter (fun t => t ≠ "Total_forcing")).map (fun t => g.forc t (y - ns).toNat * w (nhWeight t))).sum +
      (g.prec.erf.cols.map (fun c => (g.prec.erf.val c y).getD 0)).sum := by
  have hir : ¬ (y < ns ∨ g.years.length ≤ (y - ns).toNat) := by
    rw [S.years, pyRange_length]; omega
  unfold componentColumns reportForcing
  rw [List.filter_append, List.map_append, List.sum_append, List.filter_map, List.filter_map, List.map_map, List.map_map]
  have f1 : ∀ col : String → ℤ → Option ℝ, (fun c : String × (ℤ → Option ℝ) => decide (c.1 ≠ "Total_forcing")) ∘
      (fun k => (reportName k, col k)) = fun k => decide (k ≠ "Total_forcing") := by
    intro col
    funext k
    simp [reportName_total]
  rw [f1, f1]
  congr 2
  · apply List.map_congr_left
    intro k hk
    simp only [Function.comp, hir, if_false, Option.getD_some]
    rw [columnWeight_report (fun e => S.noDir (e ▸ (List.mem_filter.1 hk).1))]
  · rw [List.filter_eq_self.2 (fun k hk => by
      simp only [decide_eq_true_eq]; exact fun e => S.erf (e ▸ hk))]
    apply List.map_congr_left
    intro k hk
    simp only [Function.comp]
    rw [S.weights k hk, hw, mul_one]

/-- The hemispheric forcings of every year of a run, in terms of the handler after the run. -/
theorem forced_columns {cops : CarbonOps ℝ κ} {d d' : Driver ℝ κ} {p : RunPams ℝ} {f : ℕ → YearForcing ℝ}
    {prev : ℕ → Option (Dict ℝ)} (hf : ForcedBy cops d d' p f prev) {h g : Handler ℝ κ} (hs : d.source = .handler h)
    (hg : d'.source = .handler g) {i : Inputs ℝ} (S : Settled i d.nystart d.nyend g) {n : ℕ}
    (hn : n < (d.nyend - d.nystart + 1).toNat) :
    ∃ sun, d.sun[n]? = some sun ∧
      (f n).fn = ((componentColumns g d.nystart).map (fun c => (c.2 (d.nystart + n)).getD 0 * columnWeight c.1)).sum
        + pertOf i.pertForc "Total_forcing" (d.nystart + n) + sun ∧
      (f n).fs = ((componentColumns g d.nystart).map (fun c => (c.2 (d.nystart + n)).getD 0 * (2 - columnWeight c.1))).sum
        + pertOf i.pertForc "Total_forcing" (d.nystart + n) + sun := by
  obtain ⟨src, h0, hlast, hstep⟩ := hf.chain
  set N := (d.nyend - d.nystart + 1).toNat with hN
  have first : ∃ g0, src 0 = .handler g0 := by
    rw [hs] at h0
    simp only [resetSource, bind_eq_ok] at h0
    obtain ⟨g0, -, h0⟩ := h0
    rw [pure_ok, Except.ok.injEq] at h0
    exact ⟨g0, h0.symm⟩
  have one : ∀ m < N, ∀ a, src m = .handler a → ∃ h1 luc sun r b, src (m + 1) = .handler b ∧ Same a b ∧ Same h1 b ∧
      rowOf d.sun (d.nystart + m - d.nystart) = .ok sun ∧ conc2forc h1 (d.nystart + m) luc sun = .ok (r, b) ∧
      f m = ⟨r.nh, r.sh, r.tot, r.wAero⟩ ∧
      ∃ j, h1.index (d.nystart + m) = .ok j ∧ ∀ t z, z ≠ j → b.forc t z = a.forc t z := by
    intro m hm a ha
    have e := hstep m hm
    rw [ha] at e
    unfold yearForcing at e
    simp only [bind_eq_ok] at e
    obtain ⟨h1, hem, luc, -, sun, hsun, ⟨r, h2⟩, hr, e⟩ := e
    rw [pure_ok, Except.ok.injEq, Prod.mk.injEq] at e
    obtain ⟨s1, e1, -⟩ := emi2conc_frame hem
    obtain ⟨j, hj, s2, -, -, -, e2⟩ := conc2forc_frame hr
    exact ⟨h1, luc, sun, r, h2, e.2.symm, s1.trans s2, s2, hsun, hr, e.1.symm, j, hj, fun t z hz => by rw [e2 t z hz, e1]⟩
  have up : ∀ m, m ≤ N → ∃ a, src m = .handler a := by
    intro m
    induction m with
    | zero => exact fun _ => first
    | succ m ih =>
      intro hm
      obtain ⟨a, ha⟩ := ih (by omega)
      obtain ⟨_, _, _, _, b, hb, -⟩ := one m (by omega) a ha
      exact ⟨b, hb⟩
  have down : ∀ k m, m + k = N → ∀ a, src m = .handler a → Same a g ∧ ∀ t (z : ℕ), z < m → g.forc t z = a.forc t z := by
    intro k
    induction k with
    | zero =>
      intro m hm a ha
      obtain rfl : m = N := by omega
      rw [← hlast, hg, Source.handler.injEq] at ha
      subst ha
      exact ⟨Same.refl _, fun _ _ _ => rfl⟩
    | succ k ih =>
      intro m hm a ha
      obtain ⟨h1, luc, sun, r, b, hb, sab, shb, -, -, -, j, hj, e⟩ := one m (by omega) a ha
      obtain ⟨sbg, eg⟩ := ih (m + 1) (by omega) b hb
      have sg := shb.trans sbg
      have hy0 : h1.y0 = .ok d.nystart :=
        y0_pyRange (b := d.nyend + 1) (by rw [← sg.years, S.years]) (by have := S.order; omega)
      have hjm : j = m := by
        obtain ⟨y0, e0, -, e1, -⟩ := index_spec hj
        rw [hy0, Except.ok.injEq] at e0
        subst e0
        omega
      exact ⟨sab.trans sbg, fun t z hz => by rw [eg t z (by omega), e t z (by omega)]⟩
  obtain ⟨a, ha⟩ := up n (by omega)
  obtain ⟨h1, luc, sun, r, b, hb, sab, shb, hsun, hc, hfn, -⟩ := one n hn a ha
  obtain ⟨sbg, eg⟩ := down (N - (n + 1)) (n + 1) (by omega) b hb
  have sg := shb.trans sbg
  have hy0 : h1.y0 = .ok d.nystart :=
    y0_pyRange (b := d.nyend + 1) (by rw [← sg.years, S.years]) (by have := S.order; omega)
  have hgT : h1.gas.get? "Total_forcing" = none := by
    cases e : h1.gas.get? "Total_forcing" with
    | none => rfl
    | some x =>
      obtain ⟨_, e', -⟩ := sg.gasSome _ _ e
      rw [S.gasT] at e'
      cases e'
  obtain ⟨w1, w2⟩ := conc2forc_weighted hc hy0 (by rw [← sg.forcKeys]; exact S.keys) (by rw [← sg.forcKeys]; exact S.total) hgT
    (by rw [← sg.pam]; exact S.just)
  have hnn : (d.nystart + (n : ℤ) - d.nystart).toNat = n := by omega
  have hp : totalPert h1 (d.nystart + n) = pertOf i.pertForc "Total_forcing" (d.nystart + n) := by
    unfold totalPert pertOf
    rw [← sg.pert, S.pert]
    cases i.pertForc <;> rfl
  refine ⟨sun, ?_, ?_, ?_⟩
  · have := rowOf_some hsun
    rwa [hnn] at this
  · rw [hfn]
    simp only
    rw [weighted_columns S (by omega) (by omega) (fun x => x) rfl, w1, hp, ← sg.forcKeys, ← sg.prec, hnn]
    simp only [eg _ n (Nat.lt_succ_self n)]
  · rw [hfn]
    simp only
    rw [weighted_columns S (by omega) (by omega) (fun x => 2 - x) (by norm_num), w2, hp, ← sg.forcKeys, ← sg.prec, hnn]
    simp only [eg _ n (Nat.lt_succ_self n)]

end Verif.Props
