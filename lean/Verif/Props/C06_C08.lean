import Verif.Lemmas.Handler
import Verif.Props.C05_C09_C10_C11

/-!
# C06, C08 — forcing totals and the aerosol fraction
-/

namespace Verif.Props
open Verif.Py Verif.Model Verif.Model.Handler Verif.Spec

section
variable {κ : Type}

theorem conc2forc_inv {h h' : Handler ℝ κ} {yr : ℤ} {luc sun : ℝ} {r : ForcResult ℝ}
    (hc : conc2forc h yr luc sun = .ok (r, h')) :
    ∃ y0 a0 a1 v a3, h.y0 = .ok y0 ∧ y0 ≤ yr ∧ (yr - y0).toNat < h.years.length ∧
      threeMain h yr = .ok a0 ∧
      h.index yr = .ok (yr - y0).toNat ∧
      h.forcKeys.foldlM (forcStep h yr luc (yr - y0).toNat) a0 = .ok a1 ∧
      totVanilla h.prec yr = .ok v ∧
      applyJustOne h (yr - y0).toNat
        (addPert h y0 yr { a1 with tot := a1.tot + v, nh := a1.nh + v, sh := a1.sh + v }) = .ok a3 ∧
      (r, h') = finishForc h (yr - y0).toNat sun a3 := by
  unfold conc2forc at hc
  simp only [bind_eq_ok] at hc
  obtain ⟨a0, ha0, y0, hy0, i, hi, a1, ha1, a2, ha2, a3, ha3, he⟩ := hc
  obtain ⟨y0', hy0', hle, hi', hlt⟩ := index_spec hi
  rw [hy0] at hy0'
  obtain rfl : y0 = y0' := by simpa using hy0'
  subst hi'
  unfold addVanilla at ha2
  rw [bind_eq_ok] at ha2
  obtain ⟨v, hv, e⟩ := ha2
  rw [pure_ok, Except.ok.injEq] at e
  subst e
  rw [pure_ok, Except.ok.injEq] at he
  exact ⟨y0, a0, a1, v, a3, hy0, hle, hlt, ha0, hi, ha1, hv, ha3, he.symm⟩

theorem mapM_some {α β : Type} {f : α → Option β} : ∀ {l : List α} {vs : List β},
    l.mapM f = some vs → l.map f = vs.map some
  | [], vs, h => by simp at h; simp [h]
  | a :: l, vs, h => by
    rw [List.mapM_cons] at h
    cases ha : f a with
    | none => simp [ha] at h
    | some b =>
      rw [ha] at h
      cases hl : l.mapM f with
      | none => simp [hl] at h
      | some bs =>
        rw [hl] at h
        simp only [Option.bind_eq_bind, Option.bind_some, Option.pure_def, Option.some.injEq] at h
        subst h
        simp [ha, mapM_some hl]

theorem totVanilla_spec {p : Precalc ℝ} {yr : ℤ} {v : ℝ} (hv : totVanilla p yr = .ok v) :
    v = (p.erf.cols.map (fun c => (p.erf.val c yr).getD 0)).sum ∧
      ∀ c ∈ p.erf.cols, (p.erf.val c yr).isSome := by
  unfold totVanilla at hv
  cases hm : p.erf.cols.mapM (fun c => p.erf.val c yr) with
  | none => rw [hm] at hv; cases hv
  | some vs =>
    rw [hm] at hv
    simp only [Except.ok.injEq] at hv
    have e := mapM_some hm
    constructor
    · rw [← hv, fsum_eq_sum]
      have : p.erf.cols.map (fun c => (p.erf.val c yr).getD 0) =
          (p.erf.cols.map (fun c => p.erf.val c yr)).map (fun o => o.getD 0) := by
        rw [List.map_map]; rfl
      rw [this, e, List.map_map]
      congr 1
      conv_lhs => rw [← List.map_id vs]
      rfl
    · intro c hc
      have : p.erf.val c yr ∈ p.erf.cols.map (fun c => p.erf.val c yr) := List.mem_map_of_mem hc
      rw [e] at this
      obtain ⟨b, _, hb⟩ := List.mem_map.1 this
      rw [← hb]; rfl

theorem pertSum_cons (r : PertRow ℝ) (rows : List (PertRow ℝ)) (k : String) (yr : ℤ) :
    pertSum (r :: rows) k yr = (if r.component = k ∧ r.year = yr then r.value else 0)
      + pertSum rows k yr := by
  unfold pertSum
  by_cases h : r.component = k ∧ r.year = yr
  · rw [List.filter_cons_of_pos (by simpa using h), List.map_cons, List.sum_cons, if_pos h]
  · rw [List.filter_cons_of_neg (by simpa using h), if_neg h, zero_add]

theorem pertSumKnown_cons (r : PertRow ℝ) (rows : List (PertRow ℝ)) (ks : List String) (yr : ℤ) :
    pertSumKnown (r :: rows) ks yr = (if r.component ∈ ks ∧ r.year = yr then r.value else 0)
      + pertSumKnown rows ks yr := by
  unfold pertSumKnown
  by_cases h : r.component ∈ ks ∧ r.year = yr
  · rw [List.filter_cons_of_pos (by simpa using h), List.map_cons, List.sum_cons, if_pos h]
  · rw [List.filter_cons_of_neg (by simpa using h), if_neg h, zero_add]

/-- The perturbations of all known components, summed by component. -/
theorem pertSumKnown_eq (ks : List String) (hnd : ks.Nodup) (yr : ℤ) : ∀ rows : List (PertRow ℝ),
    pertSumKnown rows ks yr = (ks.map (fun k => pertSum rows k yr)).sum
  | [] => by simp [pertSumKnown, pertSum]
  | r :: rows => by
    rw [pertSumKnown_cons, pertSumKnown_eq ks hnd yr rows]
    have : (fun k => pertSum (r :: rows) k yr) =
        fun k => (if r.component = k ∧ r.year = yr then r.value else 0) + pertSum rows k yr := by
      funext k; exact pertSum_cons r rows k yr
    rw [this, List.sum_map_add]
    congr 1
    rw [← List.sum_toFinset _ hnd]
    by_cases hy : r.year = yr
    · simp only [hy, and_true]
      rw [Finset.sum_ite_eq]
      simp
    · simp [hy]

theorem sum_filter_ne (ks : List String) (f : String → ℝ) (k : String) (hf : f k = 0) :
    (ks.map f).sum = ((ks.filter (fun t => t ≠ k)).map f).sum := by
  induction ks with
  | nil => rfl
  | cons t ks ih =>
    by_cases h : t = k
    · rw [List.filter_cons_of_neg (by simpa using h), List.map_cons, List.sum_cons, h, hf, zero_add,
        ih]
    · rw [List.filter_cons_of_pos (by simpa using h), List.map_cons, List.sum_cons, List.map_cons,
        List.sum_cons, ih]

theorem sum_filter_ne_mem (ks : List String) (f : String → ℝ) (k : String) (hnd : ks.Nodup)
    (hk : k ∈ ks) : (ks.map f).sum = ((ks.filter (fun t => t ≠ k)).map f).sum + f k := by
  induction ks with
  | nil => simp at hk
  | cons t ks ih =>
    obtain ⟨hnt, hnd'⟩ := List.nodup_cons.1 hnd
    by_cases h : t = k
    · subst h
      rw [List.filter_cons_of_neg (by simp), List.map_cons, List.sum_cons, add_comm]
      congr 3
      rw [eq_comm, List.filter_eq_self]
      intro a ha
      simp only [decide_eq_true_eq]
      rintro rfl
      exact hnt ha
    · rw [List.filter_cons_of_pos (by simpa using h), List.map_cons, List.sum_cons, List.map_cons,
        List.sum_cons, ih hnd' ((List.mem_cons.1 hk).resolve_left (Ne.symm h)), add_assoc]

theorem tracerForcing_total {h : Handler ℝ κ} {yr : ℤ} {luc : ℝ} {a : Acc ℝ} {i : ℕ}
    (hg : h.gas.get? "Total_forcing" = none) :
    tracerForcing h yr luc a i "Total_forcing" = .ok (0, a.conc) := by
  unfold tracerForcing
  rw [if_neg (by decide), not_isAerosol_total]
  have : hasAlpha h "Total_forcing" = false := by unfold hasAlpha; rw [hg]
  rw [this]
  simp only [Bool.false_eq_true, if_false]
  rw [if_neg (by decide), if_neg (by decide)]
  norm_num

/-- The loop leaves a zero in the slot of the total. -/
theorem forcLoop_total_zero {h : Handler ℝ κ} {yr : ℤ} {luc : ℝ} {i : ℕ}
    (hg : h.gas.get? "Total_forcing" = none) :
    ∀ (ks : List String) (a a' : Acc ℝ), ks.Nodup → "Total_forcing" ∈ ks →
      ks.foldlM (forcStep h yr luc i) a = .ok a' → a'.forc "Total_forcing" i = 0
  | [], _, _, _, hm, _ => by simp at hm
  | t :: ks, a, a', hnd, hm, hf => by
    obtain ⟨b, h1, h2⟩ := foldlM_cons_ok.1 hf
    obtain ⟨hnt, hnd'⟩ := List.nodup_cons.1 hnd
    by_cases ht : "Total_forcing" = t
    · subst ht
      obtain ⟨q, c, e0, -, -, -, e4, -⟩ := forcStep_other (by decide) h1
      rw [tracerForcing_total hg] at e0
      have hq : q = 0 := by
        simp only [Except.ok.injEq, Prod.mk.injEq] at e0
        exact e0.1.symm
      rw [(forcLoop_spec ks b a' hnd' h2).1 _ _ (Or.inl fun hw => hnt (List.mem_filter.1 hw).1), e4,
        hq]
      simp [setForc]
    · rcases List.mem_cons.1 hm with h | h
      · exact absurd h ht
      · exact forcLoop_total_zero hg ks b a' hnd' h h2

/-- What a perturbation table asks to be added to the total itself in a year (rows naming the reserved
column `Total_forcing` instead of a component). -/
noncomputable def totalPert (h : Handler ℝ κ) (yr : ℤ) : ℝ :=
  match h.pert with
  | none => 0
  | some rows => pertSum rows "Total_forcing" yr

/-- No row of the perturbation table is for the total itself in this year. -/
def NoTotalPert (h : Handler ℝ κ) (yr : ℤ) : Prop :=
  ∀ rows, h.pert = some rows → ∀ r ∈ rows, r.component = "Total_forcing" → r.year ≠ yr

theorem pertSum_eq_zero {rows : List (PertRow ℝ)} {k : String} {yr : ℤ}
    (hp : ∀ r ∈ rows, r.component = k → r.year ≠ yr) : pertSum rows k yr = 0 := by
  unfold pertSum
  have : rows.filter (fun r => decide (r.component = k ∧ r.year = yr)) = [] := by
    rw [List.filter_eq_nil_iff]
    intro r hr
    simp only [decide_eq_true_eq, not_and]
    exact hp r hr
  rw [this]; rfl

theorem totalPert_eq_zero {h : Handler ℝ κ} {yr : ℤ} (hp : NoTotalPert h yr) :
    totalPert h yr = 0 := by
  unfold totalPert
  split
  · rfl
  · rename_i rows hr
    exact pertSum_eq_zero (hp rows hr)

/-- The state after perturbations: the total is the sum of the arrays plus the pre-computed part. -/
theorem afterPert {h : Handler ℝ κ} {y0 yr : ℤ} {luc v : ℝ} {a0 a1 : Acc ℝ}
    (hk : h.forcKeys.Nodup) (hT : "Total_forcing" ∈ h.forcKeys)
    (hg : h.gas.get? "Total_forcing" = none)
    (h0 : threeMain h yr = .ok a0) (hi : h.index yr = .ok (yr - y0).toNat)
    (h1 : h.forcKeys.foldlM (forcStep h yr luc (yr - y0).toNat) a0 = .ok a1) :
    let b := addPert h y0 yr { a1 with tot := a1.tot + v, nh := a1.nh + v, sh := a1.sh + v }
    b.tot = ((h.forcKeys.filter (fun t => t ≠ "Total_forcing")).map
        (fun t => b.forc t (yr - y0).toNat)).sum + v + totalPert h yr ∧
      b.nh + b.sh = 2 * b.tot ∧ b.conc = a1.conc ∧ b.aero = a1.aero := by
  obtain ⟨i', hi', k1, k2, k3, t1, t2, -, -, -⟩ := threeMain_spec h0
  rw [hi] at hi'
  obtain rfl : (yr - y0).toNat = i' := by simpa using hi'
  obtain ⟨l1, l2, l3, l4⟩ := forcLoop_spec _ _ _ hk h1
  have hz := forcLoop_total_zero hg _ _ _ hk hT h1
  have hm : ∀ t ∈ ["CO2", "N2O", "CH4"], a1.forc t (yr - y0).toNat = a0.forc t (yr - y0).toNat := by
    intro t ht
    refine l1 t _ (Or.inl fun hw => ?_)
    have := (List.mem_filter.1 hw).2
    simp only [decide_eq_true_eq] at this
    exact this ht
  have hs := sum_split_main h.forcKeys hk k1 k3 k2 (fun t => a1.forc t (yr - y0).toNat)
  have htot : a1.tot = (h.forcKeys.map (fun t => a1.forc t (yr - y0).toNat)).sum := by
    rw [hs, l2, t1, hm "CO2" (by simp), hm "N2O" (by simp), hm "CH4" (by simp)]
  have hmean : a1.nh + a1.sh = 2 * a1.tot := by rw [l3, l2, t2]; ring
  intro b
  cases hpert : h.pert with
  | none =>
    have hb : b = { a1 with tot := a1.tot + v, nh := a1.nh + v, sh := a1.sh + v } := by
      simp only [b, addPert, hpert]
    rw [hb]
    refine ⟨?_, ?_, rfl, rfl⟩
    · simp only
      have : totalPert h yr = 0 := by unfold totalPert; rw [hpert]
      rw [htot, sum_filter_ne _ _ _ hz, this, add_zero]
    · simp only; linarith
  | some rows =>
    set s0 : ForcAcc ℝ := ⟨a1.tot + v, a1.nh + v, a1.sh + v, a1.forc⟩ with hs0
    have hb : b = { a1 with
        tot := (addForcingPert rows h.forcKeys y0 yr s0).tot
        nh := (addForcingPert rows h.forcKeys y0 yr s0).nh
        sh := (addForcingPert rows h.forcKeys y0 yr s0).sh
        forc := (addForcingPert rows h.forcKeys y0 yr s0).forc } := by
      simp only [b, addPert, hpert, hs0]
    rw [hb]
    simp only
    have c1 := C09_total rows h.forcKeys y0 yr s0
    have c2 := C09_hemispheric_mean rows h.forcKeys y0 yr s0
    have c3 : ∀ t ∈ h.forcKeys, (addForcingPert rows h.forcKeys y0 yr s0).forc t (yr - y0).toNat =
        a1.forc t (yr - y0).toNat + pertSum rows t yr := fun t ht =>
      C09_component rows h.forcKeys y0 yr s0 t ht
    refine ⟨?_, ?_, trivial, trivial⟩
    · have htp : totalPert h yr = pertSum rows "Total_forcing" yr := by unfold totalPert; rw [hpert]
      have hsT : (h.forcKeys.map (fun t => pertSum rows t yr)).sum =
          ((h.forcKeys.filter (fun t => t ≠ "Total_forcing")).map (fun t => pertSum rows t yr)).sum
            + pertSum rows "Total_forcing" yr :=
        sum_filter_ne_mem _ _ _ hk hT
      have : (h.forcKeys.filter (fun t => t ≠ "Total_forcing")).map
            (fun t => (addForcingPert rows h.forcKeys y0 yr s0).forc t (yr - y0).toNat) =
          (h.forcKeys.filter (fun t => t ≠ "Total_forcing")).map
            (fun t => a1.forc t (yr - y0).toNat + pertSum rows t yr) := by
        apply List.map_congr_left
        intro t ht
        exact c3 t (List.mem_filter.1 ht).1
      have hst : s0.tot = a1.tot + v := rfl
      rw [this, c1, hst, htot, pertSumKnown_eq _ hk, sum_filter_ne _ _ _ hz,
        hsT, htp, List.sum_map_add]
      ring
    · rw [c1]
      simp only [hs0] at c2 ⊢
      linarith

/-- The reported columns of components: all forcing columns except the total. -/
def componentColumns (h : Handler ℝ κ) (y0 : ℤ) : List (String × (ℤ → Option ℝ)) :=
  (reportForcing h y0).filter (fun c => c.1 ≠ "Total_forcing")

/-- C06, main statement. After the forcing of a year was computed (without `just_one`), the reported
total of the year is the sum of all reported component columns, every one of which has a value for
the year, plus what the perturbation table addresses to the total itself (zero unless a row names the
reserved column `Total_forcing`), and the two hemispheric forcings handed on average to the total
plus solar forcing. Hypotheses: the tracer names are distinct and include the total's slot (see
`C06_keys`), and the total is not itself a row of the gas table. -/
theorem C06_total {h h' : Handler ℝ κ} {yr y0 : ℤ} {luc sun : ℝ} {r : ForcResult ℝ}
    (hc : conc2forc h yr luc sun = .ok (r, h')) (hy0 : h.y0 = .ok y0)
    (hk : h.forcKeys.Nodup) (hT : "Total_forcing" ∈ h.forcKeys)
    (hE : "Total_forcing" ∉ h.prec.erf.cols)
    (hg : h.gas.get? "Total_forcing" = none)
    (hj : h.pam.get? "just_one" = none) :
    (∀ c ∈ reportForcing h' y0, (c.2 yr).isSome) ∧
    (∃ c ∈ reportForcing h' y0, c.1 = "Total_forcing" ∧ c.2 yr = some r.tot) ∧
    r.tot = ((componentColumns h' y0).map (fun c => (c.2 yr).getD 0)).sum + totalPert h yr ∧
    (r.nh + r.sh) / 2 = r.tot + sun := by
  obtain ⟨y0', a0, a1, v, a3, e0, hle, hlt, h0, hi, h1, hv, h3, he⟩ := conc2forc_inv hc
  rw [hy0] at e0
  obtain rfl : y0 = y0' := by simpa using e0
  obtain ⟨b1, b2, -, -⟩ := afterPert (v := v) hk hT hg h0 hi h1
  obtain ⟨hvs, hsome⟩ := totVanilla_spec hv
  unfold applyJustOne at h3
  rw [hj, Except.ok.injEq] at h3
  rw [h3] at b1 b2
  unfold finishForc at he
  simp only [Prod.mk.injEq] at he
  obtain ⟨hr, hh'⟩ := he
  have hir : ¬ (yr < y0 ∨ h.years.length ≤ (yr - y0).toNat) := by omega
  have hrt : r.tot = a3.tot := by rw [hr]
  refine ⟨?_, ?_, ?_, ?_⟩
  · intro c hcm
    rw [hh'] at hcm
    unfold reportForcing at hcm
    rcases List.mem_append.1 hcm with hm | hm
    · obtain ⟨k, _, rfl⟩ := List.mem_map.1 hm
      simp only [hir, if_false]
      rfl
    · obtain ⟨k, hk', rfl⟩ := List.mem_map.1 hm
      exact hsome k hk'
  · refine ⟨(reportName "Total_forcing", fun y =>
      if y < y0 ∨ h'.years.length ≤ (y - y0).toNat then none
      else some (h'.forc "Total_forcing" (y - y0).toNat)), ?_, ?_, ?_⟩
    · refine List.mem_append_left _ (List.mem_map.2 ⟨"Total_forcing", ?_, rfl⟩)
      rw [hh']; exact hT
    · simp [reportName]
    · rw [hh', hrt]
      simp only [hir, if_false]
      simp [setForc]
  · rw [hrt]
    have hren : ∀ k, reportName k = "Total_forcing" ↔ k = "Total_forcing" := by
      intro k
      unfold reportName
      by_cases hk : k = "SO2"
      · subst hk; simp
      · simp [hk]
    unfold componentColumns reportForcing
    rw [List.filter_append, List.map_append, List.sum_append, b1]
    congr 2
    · rw [List.filter_map, List.map_map, hh']
      apply congrArg
      simp only
      have hfil : (fun c : String × (ℤ → Option ℝ) => decide (c.1 ≠ "Total_forcing")) ∘
          (fun k => (reportName k, fun y =>
            if y < y0 ∨ h.years.length ≤ (y - y0).toNat then none
            else some (setForc a3.forc "Total_forcing" (yr - y0).toNat a3.tot k (y - y0).toNat))) =
          fun k => decide (k ≠ "Total_forcing") := by
        funext k
        simp [hren]
      rw [hfil]
      apply List.map_congr_left
      intro t ht
      simp only [List.mem_filter, decide_eq_true_eq] at ht
      simp only [Function.comp, hir, if_false, Option.getD_some]
      simp [setForc, ht.2]
    · rw [List.filter_map, List.map_map, hh', hvs]
      apply congrArg
      simp only
      have hfil : ((fun c : String × (ℤ → Option ℝ) => decide (c.1 ≠ "Total_forcing")) ∘
          (fun k => (reportName k, fun y => h.prec.erf.val k y))) =
          fun k => decide (k ≠ "Total_forcing") := by
        funext k
        simp [hren]
      rw [hfil]
      have : h.prec.erf.cols.filter (fun k => decide (k ≠ "Total_forcing")) = h.prec.erf.cols := by
        rw [List.filter_eq_self]
        intro k hk
        simp only [decide_eq_true_eq]
        rintro rfl
        exact hE hk
      rw [this]
      apply List.map_congr_left
      intro k _
      rfl
  · rw [hr]
    simp only
    linarith

/-- C06 in the usual case of a perturbation table that names components only: the total is exactly the
sum of the component columns. -/
theorem C06_total_components {h h' : Handler ℝ κ} {yr y0 : ℤ} {luc sun : ℝ} {r : ForcResult ℝ}
    (hc : conc2forc h yr luc sun = .ok (r, h')) (hy0 : h.y0 = .ok y0)
    (hk : h.forcKeys.Nodup) (hT : "Total_forcing" ∈ h.forcKeys)
    (hE : "Total_forcing" ∉ h.prec.erf.cols)
    (hg : h.gas.get? "Total_forcing" = none) (hp : NoTotalPert h yr)
    (hj : h.pam.get? "just_one" = none) :
    r.tot = ((componentColumns h' y0).map (fun c => (c.2 yr).getD 0)).sum := by
  have := (C06_total hc hy0 hk hT hE hg hj).2.2.1
  rwa [totalPert_eq_zero hp, add_zero] at this

/-- C06 with `just_one`: total and hemispheric mean are those of the chosen component (solar forcing
comes on top for the hemispheres). -/
theorem C06_just_one {h h' : Handler ℝ κ} {yr y0 : ℤ} {luc sun : ℝ} {r : ForcResult ℝ}
    (hc : conc2forc h yr luc sun = .ok (r, h')) (hy0 : h.y0 = .ok y0) {k : PyVal ℝ}
    (hj : h.pam.get? "just_one" = some k) :
    ∃ s, k = .str s ∧ s ∈ h.forcKeys ∧
      (s ≠ "Total_forcing" → r.tot = h'.forc s (yr - y0).toNat) ∧
      h'.forc "Total_forcing" (yr - y0).toNat = r.tot ∧ (r.nh + r.sh) / 2 = r.tot + sun := by
  obtain ⟨y0', a0, a1, v, a3, e0, hle, hlt, h0, hi, h1, hv, h3, he⟩ := conc2forc_inv hc
  rw [hy0] at e0
  obtain rfl : y0 = y0' := by simpa using e0
  unfold applyJustOne at h3
  rw [hj] at h3
  simp only [bind_eq_ok] at h3
  obtain ⟨s, hs, h3⟩ := h3
  rw [pure_ok, Except.ok.injEq] at h3
  unfold finishForc at he
  simp only [Prod.mk.injEq] at he
  obtain ⟨hr, hh'⟩ := he
  refine ⟨s, ?_, ?_, ?_, ?_, ?_⟩
  · unfold justOneKey at hs
    split at hs
    · split at hs
      · simp only [Except.ok.injEq] at hs; rw [hs]
      · cases hs
    · cases hs
  · unfold justOneKey at hs
    split at hs
    · split at hs
      · rename_i hm; simp only [Except.ok.injEq] at hs; rw [← hs]; exact hm
      · cases hs
    · cases hs
  · intro hne
    rw [hr, hh', ← h3]
    simp [setForc, hne]
  · rw [hr, hh', ← h3]
    simp [setForc]
  · rw [hr, ← h3]
    simp only [hemisphericForcing_eq]
    norm_num
    ring

/-- The keys produced by construction and reset satisfy the hypotheses above whenever the gas table
has distinct names none of which is that of the total. -/
theorem C06_keys (ops : CarbonOps ℝ κ) {h h' : Handler ℝ κ} {pc : Option (Dict (PyVal ℝ))}
    (hr : resetArrays ops h pc = .ok h') (hn : h.prec.spicy.Nodup) :
    h'.forcKeys.Nodup ∧ "Total_forcing" ∈ h'.forcKeys := by
  unfold resetArrays at hr
  rw [bind_eq_ok] at hr
  obtain ⟨c, _, e⟩ := hr
  rw [pure_ok, Except.ok.injEq] at e
  subst e
  simp only [forcKeysOf]
  split
  · rename_i hm
    exact ⟨hn.filter _, hm⟩
  · rename_i hm
    refine ⟨?_, by simp⟩
    rw [List.nodup_append]
    refine ⟨hn.filter _, by simp, ?_⟩
    intro a ha b hb hab
    simp only [List.mem_cons, List.not_mem_nil, or_false] at hb
    subst hab; subst hb
    exact hm ha

/-! ## C08 -/

/-- No perturbation row of the year concerns a component of the run. -/
def NoPert (h : Handler ℝ κ) (yr : ℤ) : Prop :=
  ∀ rows, h.pert = some rows → ∀ r ∈ rows, r.component ∈ h.forcKeys → r.year ≠ yr

theorem addForcingPert_id {rows : List (PertRow ℝ)} {ks : List String} {y0 yr : ℤ} {s : ForcAcc ℝ}
    (hp : ∀ r ∈ rows, r.component ∈ ks → r.year ≠ yr) : addForcingPert rows ks y0 yr s = s := by
  unfold addForcingPert
  have key : ∀ l : List (PertRow ℝ), (∀ r ∈ l, r.component ∉ ks) →
      l.foldl (addForcingPertStep ks (yr - y0).toNat) s = s := by
    intro l
    induction l with
    | nil => intro _; rfl
    | cons r l ih =>
      intro hl
      rw [List.foldl_cons]
      have : addForcingPertStep ks (yr - y0).toNat s r = s := by
        unfold addForcingPertStep
        rw [if_pos (hl r List.mem_cons_self)]
      rw [this]
      exact ih (fun r' hr' => hl r' (List.mem_cons_of_mem _ hr'))
  apply key
  intro r hr hm
  simp only [List.mem_filter, decide_eq_true_eq] at hr
  exact hp r hr.1 hm hr.2

theorem addPert_id {h : Handler ℝ κ} {y0 yr : ℤ} (hp : NoPert h yr) (a : Acc ℝ) :
    addPert h y0 yr a = a := by
  unfold addPert
  cases hpe : h.pert with
  | none => rfl
  | some rows =>
    simp only
    rw [addForcingPert_id (hp rows hpe)]

theorem sum_filter_le (ks : List String) (f : String → ℝ) (hf : ∀ k, 0 ≤ f k) (p q : String → Bool)
    (hpq : ∀ k ∈ ks, p k = true → q k = true) :
    ((ks.filter p).map f).sum ≤ ((ks.filter q).map f).sum := by
  induction ks with
  | nil => simp
  | cons t ks ih =>
    have ih := ih (fun k hk => hpq k (List.mem_cons_of_mem _ hk))
    by_cases hp : p t = true
    · rw [List.filter_cons_of_pos hp, List.filter_cons_of_pos (hpq t List.mem_cons_self hp)]
      simp only [List.map_cons, List.sum_cons]
      linarith
    · rw [List.filter_cons_of_neg hp]
      by_cases hq : q t = true
      · rw [List.filter_cons_of_pos hq]
        simp only [List.map_cons, List.sum_cons]
        linarith [hf t]
      · rw [List.filter_cons_of_neg hq]
        exact ih

/-- C08 (partial: years in which no component of the run is perturbed): the aerosol fraction handed
to the thermal model lies between zero and one. Missing: perturbed years, where it fails
(`C08_false`). -/
theorem C08_range_partial {h h' : Handler ℝ κ} {yr : ℤ} {luc sun : ℝ} {r : ForcResult ℝ}
    (hc : conc2forc h yr luc sun = .ok (r, h')) (hk : h.forcKeys.Nodup) (hp : NoPert h yr) :
    0 ≤ r.wAero ∧ r.wAero ≤ 1 := by
  obtain ⟨y0, a0, a1, v, a3, e0, hle, hlt, h0, hi, h1, hv, h3, he⟩ := conc2forc_inv hc
  obtain ⟨i', hi', -, -, -, -, -, t3, -, -⟩ := threeMain_spec h0
  obtain ⟨-, -, -, l4⟩ := forcLoop_spec _ _ _ hk h1
  rw [addPert_id hp] at h3
  have h3' : a3.aero = a1.aero ∧ a3.forc = a1.forc := by
    unfold applyJustOne at h3
    split at h3
    · rw [Except.ok.injEq] at h3; subst h3; exact ⟨rfl, rfl⟩
    · rw [bind_eq_ok] at h3
      obtain ⟨k, _, h3⟩ := h3
      rw [pure_ok, Except.ok.injEq] at h3
      subst h3
      exact ⟨rfl, rfl⟩
  unfold finishForc at he
  simp only [Prod.mk.injEq] at he
  have hr := he.1
  rw [t3, zero_add] at l4
  set S := fsum ((h.forcKeys.filter (fun k => k ≠ "Total_forcing")).map
    (fun k => MathFn.abs (setForc a3.forc "Total_forcing" (yr - y0).toNat a3.tot k
      (yr - y0).toNat))) with hS
  have hS' : S = ((h.forcKeys.filter (fun k => k ≠ "Total_forcing")).map
      (fun k => |a1.forc k (yr - y0).toNat|)).sum := by
    rw [hS, fsum_eq_sum]
    congr 1
    apply List.map_congr_left
    intro k hk
    simp only [List.mem_filter, decide_eq_true_eq] at hk
    simp [setForc, hk.2, h3'.2]
  have hA : a3.aero ≤ S := by
    rw [h3'.1, l4, hS', worked, List.filter_filter]
    refine sum_filter_le _ _ (fun k => abs_nonneg _) _ _ ?_
    intro k _ hk'
    simp only [Bool.and_eq_true, decide_eq_true_eq] at hk' ⊢
    rintro rfl
    rw [not_isAerosol_total] at hk'
    simp at hk'
  have hA0 : 0 ≤ a3.aero := by
    rw [h3'.1, l4]
    apply List.sum_nonneg
    intro x hx
    obtain ⟨k, _, rfl⟩ := List.mem_map.1 hx
    exact abs_nonneg _
  rw [hr]
  simp only
  by_cases hpos : (0.0 : ℝ) < S
  · rw [if_pos hpos]
    have : (0 : ℝ) < S := by norm_num at hpos; exact hpos
    exact ⟨div_nonneg hA0 this.le, (div_le_one this).2 hA⟩
  · rw [if_neg hpos]
    norm_num

/-! ## Concrete handlers -/

/-- A gas table row. -/
noncomputable def exGas (u : String) : Gas ℝ := ⟨u, 0, 1, 1, 1, 1, 0, 1⟩

/-- A run with the three main gases, sulphate and (empty) pre-computed gases in the years 2000 and
2001; sulphur emissions rise by one unit. `rows` are the forcing perturbations. -/
noncomputable def exHandler (rows : Option (List (PertRow ℝ))) : Handler ℝ Unit :=
  { gas := [("CO2", exGas "ppm"), ("CH4", exGas "ppb"), ("N2O", exGas "ppb"), ("SO2", exGas "-")]
    natCh4 := ⟨[], [], fun _ _ => 0⟩
    natN2o := ⟨[], [], fun _ _ => 0⟩
    concIn := ⟨[], [], fun _ _ => 0⟩
    emis := ⟨["SO2"], [2000, 2001], fun _ y => if y = 2001 then 1 else 0⟩
    pam := [("qdirso2", .flt (-1))]
    pert := rows
    years := [2000, 2001]
    prec := ⟨[], [], ⟨["STRAT_O3"], fun _ _ => some 0⟩, []⟩
    carbon := ()
    concKeys := ["CO2", "CH4", "N2O"]
    conc := fun _ _ => some 1
    forcKeys := ["CO2", "CH4", "N2O", "SO2", "Total_forcing"]
    forc := fun _ _ => 0 }

theorem exSO2 : isAerosol "SO2" = true := by decide +kernel

theorem setForc_zero (t : String) (i : ℕ) :
    setForc (fun _ _ => (0 : ℝ)) t i 0 = fun _ _ => 0 := by
  funext t' j; simp [setForc]

theorem exThree (rows : Option (List (PertRow ℝ))) :
    threeMain (exHandler rows) 2001 = .ok ⟨0, 0, 0, 0, fun _ _ => 0, fun _ _ => some 1⟩ := by
  unfold threeMain
  simp only [exHandler, Handler.y0, Handler.concAt, Handler.gasAt, Handler.index, Dict.getE,
    Dict.get?, needKey, bind_ok, pure_ok]
  simp [bind_ok, pure_ok, qCo2, qN2o, qCh4, hemisphericForcing_eq, setForc_zero]
  norm_num

/-- The forcing state after the loop: only sulphate contributes. -/
noncomputable def exLoop : Acc ℝ :=
  ⟨-1, -1.47, -0.53, 1, setForc (fun _ _ => 0) "SO2" 1 (-1), fun _ _ => some 1⟩

theorem exAero (rows : Option (List (PertRow ℝ))) :
    aerosolForcing (exHandler rows) 2001 "SO2" = .ok (-1) := by
  unfold aerosolForcing
  simp [exHandler, Handler.y0, Handler.gasAt, Dict.getE, Dict.get?, exGas, bind_ok, pure_ok,
    refEmissionSpecies, Frame.at', pamF, PyVal.toF, isEq]
  norm_num

theorem exLoop_eq (rows : Option (List (PertRow ℝ))) :
    (exHandler rows).forcKeys.foldlM (forcStep (exHandler rows) 2001 0 1)
      ⟨0, 0, 0, 0, fun _ _ => 0, fun _ _ => some 1⟩ = .ok exLoop := by
  have h1 : (exHandler rows).forcKeys = ["CO2", "CH4", "N2O", "SO2", "Total_forcing"] := rfl
  rw [h1]
  simp only [List.foldlM_cons, List.foldlM_nil]
  rw [forcStep_main (by decide), bind_ok, forcStep_main (by decide), bind_ok,
    forcStep_main (by decide), bind_ok]
  have h2 : forcStep (exHandler rows) 2001 0 1 ⟨0, 0, 0, 0, fun _ _ => 0, fun _ _ => some 1⟩ "SO2" =
      .ok exLoop := by
    unfold forcStep
    rw [if_neg (by decide)]
    unfold tracerForcing
    rw [if_neg (by decide), exSO2]
    simp only [if_true]
    rw [exAero]
    norm_num [bind_ok, pure_ok, hemisphericForcing_eq, nhWeight, exLoop]
  rw [h2, bind_ok]
  unfold forcStep
  rw [if_neg (by decide), tracerForcing_total (by simp [exHandler, Dict.get?])]
  norm_num [bind_ok, pure_ok, hemisphericForcing_eq, nhWeight, exLoop, not_isAerosol_total]
  funext t j
  by_cases h : t = "Total_forcing" <;> simp [setForc, h]

theorem exForc (rows : Option (List (PertRow ℝ))) (sun : ℝ) :
    conc2forc (exHandler rows) 2001 0 sun =
      .ok (finishForc (exHandler rows) 1 sun (addPert (exHandler rows) 2000 2001 exLoop)) := by
  unfold conc2forc
  have hy : (exHandler rows).y0 = .ok 2000 := rfl
  have hi : (exHandler rows).index 2001 = .ok 1 := by
    unfold Handler.index; rw [hy, bind_ok]; simp [exHandler]
  rw [exThree, bind_ok, hy, bind_ok, hi, bind_ok, exLoop_eq, bind_ok]
  have hv : addVanilla (exHandler rows) 2001 exLoop = .ok exLoop := by
    unfold addVanilla totVanilla
    simp [exHandler, fsum, exLoop, bind_ok, pure_ok]
    norm_num
  rw [hv, bind_ok]
  have hj : ∀ a, applyJustOne (exHandler rows) 1 a = .ok a := by
    intro a; simp [applyJustOne, exHandler, Dict.get?]
  rw [hj, bind_ok, pure_ok]

/-- Non-vacuity of C06 and C08: a year with a non-zero component. -/
example : ∃ r h', conc2forc (exHandler none) 2001 0 0.25 = .ok (r, h') ∧ r.tot = -1 ∧
    r.nh = -1.47 + 0.25 ∧ r.wAero = 1 := by
  refine ⟨_, _, exForc none 0.25, ?_, ?_, ?_⟩
  · simp [addPert, exHandler, exLoop]
  · simp [addPert, exHandler, exLoop]
  · simp [addPert, exHandler, exLoop, setForc, fsum]
    norm_num
example : (exHandler none).forcKeys.Nodup ∧ "Total_forcing" ∈ (exHandler none).forcKeys ∧
    "Total_forcing" ∉ (exHandler none).prec.erf.cols ∧
    (exHandler none).gas.get? "Total_forcing" = none ∧ NoTotalPert (exHandler none) 2001 ∧
    NoPert (exHandler none) 2001 ∧ (exHandler none).pam.get? "just_one" = none := by
  refine ⟨by simp [exHandler], by simp [exHandler], by simp [exHandler],
    by simp [exHandler, Dict.get?], ?_, ?_, by simp [exHandler, Dict.get?]⟩
  · intro rows h; simp [exHandler] at h
  · intro rows h; simp [exHandler] at h

/-- C08 as stated is false of the code: a perturbation of `+0.5` on a sulphate forcing of `-1` gives
an aerosol fraction of two. -/
theorem C08_false : ¬ ∀ (h h' : Handler ℝ Unit) (yr : ℤ) (luc sun : ℝ) (r : ForcResult ℝ),
    h.forcKeys.Nodup → conc2forc h yr luc sun = .ok (r, h') → 0 ≤ r.wAero ∧ r.wAero ≤ 1 := by
  intro hall
  have h := (hall (exHandler (some [⟨"SO2", 2001, 0.5⟩])) _ 2001 0 0 _ (by simp [exHandler])
    (exForc _ 0)).2
  simp [finishForc, addPert, exHandler, exLoop, setForc, fsum, addForcingPert,
    addForcingPertStep] at h
  norm_num at h

/-- The extra term of `C06_total` is not idle: here a row named after the total is added to the total
and to no component. -/
example : totalPert (exHandler (some [⟨"Total_forcing", 2001, 0.5⟩])) 2001 = 0.5 := by
  simp [totalPert, exHandler, pertSum]

end
end Verif.Props
