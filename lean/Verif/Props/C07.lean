import Verif.Props.C06_C08
import Verif.Props.C12

/-!
# C07 — forcing is measured from the start year

Numbers are real. The start-year concentrations of CO2, CH4 and N2O are assumed positive, as in the
property; over the reals (division by zero is zero) the proofs do not need it, the code does
(`log(c / c0)`).
-/

namespace Verif.Props
open Verif.Py Verif.Py.Dict Verif.Model Verif.Model.Handler Verif.Model.Driver Verif.Spec

section
variable {κ τ : Type}

/-! ## One year -/

theorem threeMain_start {h : Handler ℝ κ} {y0 : ℤ} {a : Acc ℝ} (hy0 : h.y0 = .ok y0)
    (e : threeMain h y0 = .ok a) : ∀ t ∈ ["CO2", "N2O", "CH4"], a.forc t 0 = 0 := by
  unfold threeMain at e
  simp only [bind_eq_ok] at e
  obtain ⟨y0', hy0', n0, hn0, n, hn, c0, hc0, c, hc, m0, hm0, m, hm, gc, _, gn, _, gm, _, i, hi, _, _, _, _,
    _, _, ha⟩ := e
  rw [hy0, Except.ok.injEq] at hy0'
  subst hy0'
  rw [hn0, Except.ok.injEq] at hn
  rw [hc0, Except.ok.injEq] at hc
  rw [hm0, Except.ok.injEq] at hm
  subst hn hc hm
  obtain ⟨y0', e0, -, hi0, -⟩ := index_spec hi
  rw [hy0, Except.ok.injEq] at e0
  subst e0
  rw [sub_self] at hi0
  simp only [Int.toNat_zero] at hi0
  subst hi0
  rw [pure_ok, Except.ok.injEq] at ha
  subst ha
  have hlog : qCo2 c0 c0 n0 n0 = 0 := by
    unfold qCo2
    have : MathFn.log (c0 / c0) = 0 := by
      by_cases h : c0 = 0
      · subst h; simp [MathFn.log]
      · rw [div_self h]; simp [MathFn.log]
    rw [this, mul_zero]
  have hn2o : qN2o c0 c0 n0 n0 m0 m0 = 0 := by unfold qN2o; rw [sub_self, mul_zero]
  have hch4 : qCh4 n0 n0 m0 m0 = 0 := by unfold qCh4; rw [sub_self, mul_zero]
  intro t ht
  simp only [List.mem_cons, List.not_mem_nil, or_false] at ht
  rcases ht with rfl | rfl | rfl <;> simp [setForc, hlog, hn2o, hch4]

theorem tracerForcing_start {h : Handler ℝ κ} {y0 : ℤ} {luc : ℝ} {a : Acc ℝ} {t : String}
    {r : ℝ × (String → ℤ → Option ℝ)} (hy0 : h.y0 = .ok y0) (hch4 : a.forc "CH4" 0 = 0)
    (e : tracerForcing h y0 luc a 0 t = .ok r) : r.1 = if t = "LANDUSE" then luc else 0 := by
  unfold tracerForcing at e
  by_cases c1 : t = "LANDUSE"
  · rw [if_pos c1, Except.ok.injEq] at e; subst e; rw [if_pos c1]
  rw [if_neg c1] at e ⊢
  by_cases c2 : isAerosol t = true
  · rw [if_pos c2, bind_eq_ok] at e
    obtain ⟨q, hq, e⟩ := e
    rw [pure_ok, Except.ok.injEq] at e
    subst e
    unfold aerosolForcing at hq
    simp only [bind_eq_ok] at hq
    obtain ⟨y, hy, g, -, hq⟩ := hq
    rw [hy0, Except.ok.injEq] at hy
    subst hy
    split at hq
    · simp only [bind_eq_ok] at hq
      obtain ⟨x, hx, x', hx', hq⟩ := hq
      rw [hx, Except.ok.injEq] at hx'
      subst hx'
      rw [pure_ok, Except.ok.injEq] at hq
      subst hq
      simp
    · split at hq
      · rw [Except.ok.injEq] at hq; subst hq; norm_num
      · simp only [bind_eq_ok] at hq
        obtain ⟨x, hx, x', hx', p, -, hq⟩ := hq
        rw [hx, Except.ok.injEq] at hx'
        subst hx'
        rw [pure_ok, Except.ok.injEq] at hq
        subst hq
        simp
  rw [if_neg c2] at e
  by_cases c3 : hasAlpha h t = true
  · rw [if_pos c3] at e
    simp only [bind_eq_ok] at e
    obtain ⟨y, hy, c, hc, c0, hc0, g, -, e⟩ := e
    rw [hy0, Except.ok.injEq] at hy
    subst hy
    rw [hc, Except.ok.injEq] at hc0
    subst hc0
    rw [pure_ok, Except.ok.injEq] at e
    subst e
    simp
  rw [if_neg c3] at e
  by_cases c4 : t = "TROP_O3"
  · rw [if_pos c4] at e
    simp only [bind_eq_ok] at e
    obtain ⟨q, hq, g, -, e⟩ := e
    rw [pure_ok, Except.ok.injEq] at e
    subst e
    unfold tropO3Forcing at hq
    simp only [bind_eq_ok] at hq
    obtain ⟨y, hy, v, -, -, -, v0, hv0, p, -, hq⟩ := hq
    rw [hy0, Except.ok.injEq] at hy
    subst hy
    have : v0 = v := by
      unfold accConc Handler.concAt at hv0
      split at hv0
      · simp only [and_self, if_true, Except.ok.injEq] at hv0
        exact hv0.symm
      · cases hv0
    subst this
    split at hq <;> rw [pure_ok, Except.ok.injEq] at hq <;> subst hq
    · norm_num
    · simp
  rw [if_neg c4] at e
  by_cases c5 : t = "STRAT_H2O"
  · rw [if_pos c5] at e
    simp only [bind_eq_ok] at e
    obtain ⟨p, -, g, -, e⟩ := e
    rw [pure_ok, Except.ok.injEq] at e
    subst e
    simp [hch4]
  rw [if_neg c5, Except.ok.injEq] at e
  subst e
  norm_num

theorem forcLoop_start {h : Handler ℝ κ} {y0 : ℤ} {luc : ℝ} (hy0 : h.y0 = .ok y0) :
    ∀ (ks : List String) (a a' : Acc ℝ), a.forc "CH4" 0 = 0 →
      (∀ t ∈ ["CO2", "N2O", "CH4"], a.forc t 0 = 0) →
      ks.foldlM (forcStep h y0 luc 0) a = .ok a' →
      ∀ t, (t ∈ ks ∨ a.forc t 0 = if t = "LANDUSE" then luc else 0) →
        a'.forc t 0 = if t = "LANDUSE" then luc else 0
  | [], a, a', _, _, e, t, ht => by
    rw [foldlM_nil_ok] at e
    subst e
    simpa using ht
  | s :: ks, a, a', h4, hm, e, t, ht => by
    obtain ⟨b, e1, e2⟩ := foldlM_cons_ok.1 e
    by_cases hs : s ∈ ["CO2", "N2O", "CH4"]
    · unfold forcStep at e1
      rw [if_pos hs, Except.ok.injEq] at e1
      subst e1
      refine forcLoop_start hy0 ks a a' h4 hm e2 t ?_
      rcases ht with ht | ht
      · rcases List.mem_cons.1 ht with rfl | ht
        · right
          rw [hm _ hs, if_neg]
          rintro rfl
          revert hs; decide
        · exact Or.inl ht
      · exact Or.inr ht
    · obtain ⟨q, c, hq, -, -, -, hf, -⟩ := forcStep_other hs e1
      have hq := tracerForcing_start hy0 h4 hq
      simp only at hq
      have hne : ∀ t ∈ ["CO2", "N2O", "CH4"], t ≠ s := by
        rintro u hu rfl; exact hs hu
      have hb : ∀ t ∈ ["CO2", "N2O", "CH4"], b.forc t 0 = 0 := by
        intro t ht
        rw [hf]
        unfold setForc
        rw [if_neg (fun x => hne t ht x.1)]
        exact hm t ht
      refine forcLoop_start hy0 ks b a' (hb _ (by simp)) hb e2 t ?_
      by_cases hts : t = s
      · subst hts
        right
        rw [hf, ← hq]
        simp [setForc]
      · rcases ht with ht | ht
        · exact Or.inl ((List.mem_cons.1 ht).resolve_left hts)
        · right
          rw [hf]
          unfold setForc
          rw [if_neg (fun x => hts x.1)]
          exact ht

theorem start_components {h h' : Handler ℝ κ} {y0 : ℤ} {luc sun : ℝ} {r : ForcResult ℝ}
    (hc : conc2forc h y0 luc sun = .ok (r, h')) (hy0 : h.y0 = .ok y0) (hp : NoPert h y0) :
    ∀ k ∈ h.forcKeys, k ≠ "Total_forcing" → h'.forc k 0 = if k = "LANDUSE" then luc else 0 := by
  obtain ⟨y0', a0, a1, v, a3, e0, hle, hlt, h0, hi, h1, hv, h3, he⟩ := conc2forc_inv hc
  rw [hy0, Except.ok.injEq] at e0
  subst e0
  rw [addPert_id hp] at h3
  simp only [sub_self, Int.toNat_zero] at h1 h3 he
  have hm := threeMain_start hy0 h0
  have hall := forcLoop_start hy0 h.forcKeys a0 a1 (hm _ (by simp)) hm h1
  have hf : a3.forc = a1.forc := by
    unfold applyJustOne at h3
    split at h3
    · rw [Except.ok.injEq] at h3; subst h3; rfl
    · rw [bind_eq_ok] at h3
      obtain ⟨k, _, h3⟩ := h3
      rw [pure_ok, Except.ok.injEq] at h3
      subst h3
      rfl
  intro k hk hT
  unfold finishForc at he
  simp only [Prod.mk.injEq] at he
  rw [he.2]
  simp only [setForc, hT, false_and, if_false]
  rw [hf]
  exact hall k (Or.inl hk)

/-- C07, one year: in the start year, without perturbations, every component array of the run gets
zero, except land use, which gets its prescribed value. (`just_one` does not matter here.) -/
theorem C07_components {h h' : Handler ℝ κ} {y0 : ℤ} {luc sun : ℝ} {r : ForcResult ℝ}
    (hc : conc2forc h y0 luc sun = .ok (r, h')) (hy0 : h.y0 = .ok y0) (hp : NoPert h y0)
    (_hpos : ∀ t ∈ ["CO2", "CH4", "N2O"], ∃ v, 0 < v ∧ h.conc t y0 = some v) :
    ∀ k ∈ h.forcKeys, k ≠ "Total_forcing" → h'.forc k 0 = if k = "LANDUSE" then luc else 0 :=
  start_components hc hy0 hp

/-- C07, the gases computed ahead: their forcing and that of stratospheric ozone is zero in the start
year. -/
theorem C07_precomputed {gas : Dict (Gas ℝ)} {concIn emis : Frame ℝ} {pam : Dict (PyVal ℝ)}
    {ns es ne : ℤ} {cl br : Dict Int} {p : Precalc ℝ} {run : Bool}
    (hrun : pamB pam "conc_run" = .ok run) (ht : RunTables concIn emis pam ns es ne)
    (h : precalculate gas concIn emis pam none (pyRange ns (ne + 1)) cl br = .ok p) :
    ∀ c, p.erf.val c ns = some 0 := by
  have hlt : ns < ne + 1 := by have := ht.nonempty; omega
  have hrows : p.conc.map Prod.fst = pyRange ns (ne + 1) := by
    have h' := h
    unfold precalculate at h'
    simp only [bind_eq_ok] at h'
    obtain ⟨gases, hg, conc, hconc, erf0, herf, so3, hso3, strat, hstrat, rows, hadd, erf, hpert, hp⟩ := h'
    rw [pure_ok, Except.ok.injEq] at hp
    subst hp
    simp only
    rw [(precalcConc_rows hconc hrun ht).1, List.map_map]
    simp [Function.comp_def]
  obtain ⟨so3, late, -, -, -, -, -, hval⟩ := precalculate_spec hlt h hrows
  intro c
  rw [hval c ns (le_refl _) hlt]
  split
  · rw [if_pos (by omega)]
    unfold stratO3Forcing
    norm_num
  · rw [sub_self, mul_zero]

theorem sum_landuse (luc : ℝ) : ∀ (ks : List String), ks.Nodup →
    (ks.map (fun t => if t = "LANDUSE" then luc else 0)).sum = if "LANDUSE" ∈ ks then luc else 0
  | [], _ => by simp
  | k :: ks, hnd => by
    obtain ⟨hn, hnd'⟩ := List.nodup_cons.1 hnd
    rw [List.map_cons, List.sum_cons, sum_landuse luc ks hnd']
    by_cases hk : k = "LANDUSE"
    · subst hk; rw [if_neg hn]; simp
    · rw [if_neg hk, zero_add]
      simp [Ne.symm hk]

theorem start_total {h h' : Handler ℝ κ} {y0 : ℤ} {luc sun : ℝ} {r : ForcResult ℝ}
    (hc : conc2forc h y0 luc sun = .ok (r, h')) (hy0 : h.y0 = .ok y0) (hp : NoPert h y0)
    (hk : h.forcKeys.Nodup) (hT : "Total_forcing" ∈ h.forcKeys)
    (hg : h.gas.get? "Total_forcing" = none) (hj : h.pam.get? "just_one" = none)
    (hprec : ∀ c, h.prec.erf.val c y0 = some 0) :
    r.tot = if "LANDUSE" ∈ h.forcKeys then luc else 0 := by
  have hcomp := start_components hc hy0 hp
  obtain ⟨y0', a0, a1, v, a3, e0, hle, hlt, h0, hi, h1, hv, h3, he⟩ := conc2forc_inv hc
  rw [hy0, Except.ok.injEq] at e0
  subst e0
  obtain ⟨b1, -, -, -⟩ := afterPert (v := v) hk hT hg h0 hi h1
  unfold applyJustOne at h3
  rw [hj, Except.ok.injEq] at h3
  rw [h3] at b1
  unfold finishForc at he
  simp only [Prod.mk.injEq] at he
  have hv0 : v = 0 := by
    rw [(totVanilla_spec hv).1]
    apply List.sum_eq_zero
    intro x hx
    obtain ⟨c, -, rfl⟩ := List.mem_map.1 hx
    rw [hprec c]; rfl
  have htp : totalPert h y0 = 0 := by
    apply totalPert_eq_zero
    intro rows hr r hrm hcT hy
    exact hp rows hr r hrm (by rw [hcT]; exact hT) hy
  have e1 : r.tot = a3.tot := by rw [he.1]
  rw [e1, b1, hv0, htp, add_zero, add_zero]
  have : (h.forcKeys.filter (fun t => t ≠ "Total_forcing")).map (fun t => a3.forc t (y0 - y0).toNat) =
      (h.forcKeys.filter (fun t => t ≠ "Total_forcing")).map (fun t => if t = "LANDUSE" then luc else 0) := by
    apply List.map_congr_left
    intro t ht
    rw [List.mem_filter, decide_eq_true_eq] at ht
    rw [← hcomp t ht.1 ht.2, he.2]
    simp [setForc, ht.2]
  rw [this, sum_landuse _ _ (hk.filter _)]
  congr 1
  simp

/-! ## Whole runs -/

theorem y0_pyRange {h : Handler ℝ κ} {a b : ℤ} (hy : h.years = pyRange a b) (hab : a < b) : h.y0 = .ok a := by
  unfold Handler.y0
  rw [hy, pyRange_cons hab]

theorem mem_cols {gas : Dict (Gas ℝ)} {concIn emis : Frame ℝ} {pam : Dict (PyVal ℝ)}
    {years : List ℤ} {cl br : Dict Int} {p : Precalc ℝ} {k : String}
    (h : precalculate gas concIn emis pam none years cl br = .ok p) (hk : k ∈ p.erf.cols)
    (hs : k ≠ "STRAT_O3") : k ∈ p.gases := by
  unfold precalculate at h
  simp only [bind_eq_ok] at h
  obtain ⟨gases, hg, conc, hconc, erf0, herf, so3, hso3, strat, hstrat, rows, hadd, erf, hpert, hp⟩ := h
  rw [pure_ok, Except.ok.injEq] at hp
  subst hp
  have hf : ∀ l : List String, l.filter (fun c => decide (c ∈ List.map PertRow.component ([] : List (PertRow ℝ)))) = [] := by
    intro l; simp
  unfold addForcingPertVanilla at hpert
  rw [Option.getD_none, hf, foldlM_nil_ok] at hpert
  subst hpert
  simp only [rowsTable] at hk ⊢
  split at hk
  · exact hk
  · simpa [hs] using hk

/-- C07: in every run of an instance (new or after any history), without forcing perturbations and
`just_one`, every reported forcing of the start year is zero, except land use, which has the prescribed
value, and the reported total is the land use value (zero if there is no land use row). -/
theorem C07_run {cops : CarbonOps ℝ κ} {tops : ThermalOps ℝ τ} {d0 d d1 : Driver ℝ κ}
    {i : Inputs ℝ} {pamset carb : Option (Dict (PyVal ℝ))} {h0 g : Handler ℝ κ} {es : ℤ}
    {ps : List (RunPams ℝ)} {p : RunPams ℝ} {t : τ}
    (hnd : (tops.outputs.map Prod.fst ++ forcOutputList).Nodup) (hgas : i.gas.keys.Nodup)
    (hTg : "Total_forcing" ∉ i.gas.keys) (hlu : ∀ x, i.gas.get? "LANDUSE" = some x → x.concUnit = "-")
    (hpert : i.pertForc = none)
    (ht : RunTables i.concIn i.emis (Dict.set (Factory.checkPamset pamset) "conc_run" (.bool i.concRun))
      d0.nystart es d0.nyend)
    (hc : construct cops i pamset carb = .ok h0) (hd0 : d0.source = .handler h0)
    (ha : After cops tops d0 ps d)
    (hj0 : "just_one" ∉ Dict.keys (pamset.getD []))
    (hj : ∀ p' ∈ ps ++ [p], "just_one" ∉ Dict.keys (p'.emiconc.getD []))
    (hr : run cops tops d p = .ok (d1, t)) (hg : d1.source = .handler g)
    (_hpos : ∀ t ∈ ["CO2", "CH4", "N2O"], ∃ v, 0 < v ∧ g.conc t d0.nystart = some v) :
    ∃ luc0, d0.luc[0]? = some luc0 ∧
      (∀ c ∈ reportForcing g d0.nystart, c.1 ≠ "Total_forcing" →
        c.2 d0.nystart = some (if c.1 = "LANDUSE" then luc0 else 0)) ∧
      entry d1.results "Total_forcing" 0 = some (if "LANDUSE" ∈ i.gas.keys then luc0 else 0) := by
  have hle := ht.nonempty
  obtain ⟨emis, cl, br, he, ht2, hpre, hcg, -, -, hcp, hcy⟩ := constructed hc ht
  obtain ⟨h, hd, -, hk, hsame⟩ := after_spec yearLaw_real hd0 ha (fun _ => True) trivial
    (fun _ _ _ _ _ _ _ => trivial) (fun _ _ _ _ _ _ => trivial)
  have hns : d.nystart = d0.nystart := by rw [hsame]
  have hne : d.nyend = d0.nyend := by rw [hsame]
  have hluc : d.luc = d0.luc := by rw [hsame]
  obtain ⟨tr, htr⟩ := run_trace hr
  obtain ⟨H, hreset, hsrc, hyr⟩ := handler_trace htr hd
  have hJ : "just_one" ∉ Dict.keys (p.emiconc.getD []) := hj p (by simp)
  have kept := hk.reset yearLaw_real hreset (fun _ => hJ)
  have hjust := kept.just (fun p' hp' => hj p' (List.mem_append_left _ hp'))
  obtain ⟨h1, luc, sun, r, values, vn, vs, hy⟩ := hyr d.nystart (le_refl _) (by omega)
  obtain ⟨frz, frzc, frzf⟩ := handler_frozen hyr (a := d.nystart + 1) (b := d.nyend + 1) (by omega) (by omega) (le_refl _)
  have hgH : g = H (d.nyend + 1) := by
    have e1 := hsrc (d.nyend + 1) (by omega) (le_refl _)
    have e2 : d1.source = (tr (d.nyend + 1)).source := by rw [htr.last.1]
    rw [hg, e1] at e2
    exact Source.handler.inj e2
  obtain ⟨s1, -, -⟩ := emi2conc_frame hy.emi
  obtain ⟨i0, -, s2, -, -, -, -⟩ := conc2forc_frame hy.forc
  -- the handler before the forcing of the first year
  have y1 : h1.years = pyRange d0.nystart (d0.nyend + 1) := by rw [s1.years, kept.years, hcy]
  have hy0 : h1.y0 = .ok d.nystart := by rw [hns]; exact y0_pyRange y1 (by omega)
  have hnp : NoPert h1 d.nystart := by
    intro rows hrows
    rw [s1.pert, kept.pert, hcp, hpert] at hrows
    cases hrows
  have hprec : h1.prec = h0.prec := by rw [s1.prec, kept.prec]
  rw [hpert] at hpre
  have hzero := C07_precomputed (concRun_pam _ _) ht2 hpre
  obtain ⟨hvg, -, hsp⟩ := mem_spicy hpre
  have hforc : h1.forcKeys = forcKeysOf h0.prec.spicy := by
    rw [s1.forcKeys]
    obtain ⟨pam, c, -, -, e⟩ := reset_spec hreset
    rw [e, hk.prec]
  have hspn : h0.prec.spicy.Nodup := by rw [hsp]; exact hgas.filter _
  have hTs : "Total_forcing" ∉ h0.prec.spicy := by
    rw [hsp]; exact fun h => hTg (List.mem_filter.1 h).1
  have hfk : h1.forcKeys = h0.prec.spicy.filter (fun t => t ≠ "CO2.1") ++ ["Total_forcing"] := by
    rw [hforc]
    unfold forcKeysOf
    rw [if_neg (fun h => hTs (List.mem_filter.1 h).1)]
  have hfn : h1.forcKeys.Nodup := by
    rw [hfk, List.nodup_append]
    refine ⟨hspn.filter _, by simp, ?_⟩
    intro a ha b hb hab
    simp only [List.mem_cons, List.not_mem_nil, or_false] at hb
    subst hab; subst hb
    exact hTs (List.mem_filter.1 ha).1
  have hkeys1 : h1.gas.keys = i.gas.keys := by
    rw [emi2conc_keys hy.emi, kept.keys, hcg]
  have hg1 : h1.gas.get? "Total_forcing" = none := by
    rw [get?_eq_none_iff, hkeys1]; exact hTg
  have hj1 : h1.pam.get? "just_one" = none := by
    rw [s1.pam, hjust]
    obtain ⟨_, _, _, _, _, _, _, _, _, _, _, _, _, _, _, _, rfl⟩ := construct_spec hc
    simp only
    rw [avoid_get? _ _ _ (by decide), get?_set, if_neg (by decide), get?_eq_none_iff, mem_keys_checkPamset, not_or]
    refine ⟨?_, fun x => hj0 x.2⟩
    unfold Factory.checkPamset cutAndCheckPamset
    rw [mem_keys_checkNumeric, mem_keys_cut]
    simp [Factory.handlerRequired, Dict.keys, Dict.has, Dict.get?, Dict.set]
  have hnv : "LANDUSE" ∉ h0.prec.gases := by
    unfold vanillaGases at hvg
    split at hvg
    · rw [Except.ok.injEq] at hvg
      rw [← hvg]
      intro hm
      obtain ⟨q, hq, hq1⟩ := List.mem_map.1 hm
      obtain ⟨hq2, hq3⟩ := List.mem_filter.1 hq
      simp only [decide_eq_true_eq] at hq3
      refine hq3.1 (hlu q.2 (Dict.get?_of_mem hgas ?_))
      rw [← hq1]
      exact hq2
    · cases hvg
  have hrn : ∀ k, (reportName k = "LANDUSE") ↔ k = "LANDUSE" := by
    intro k
    unfold reportName
    by_cases hk : k = "SO2"
    · subst hk; simp
    · rw [if_neg hk]
  have hland : "LANDUSE" ∈ h1.forcKeys ↔ "LANDUSE" ∈ i.gas.keys := by
    rw [hfk, List.mem_append, List.mem_filter, hsp, List.mem_filter]
    simp [hnv]
  refine ⟨luc, ?_, ?_, ?_⟩
  · have := (rowOf_eq_ok.1 hy.lucE).2
    rw [hluc] at this
    simpa using this
  · have hcomp := start_components hy.forc hy0 hnp
    intro c hcm hct
    unfold reportForcing at hcm
    rcases List.mem_append.1 hcm with hm | hm
    · obtain ⟨k, hkm, rfl⟩ := List.mem_map.1 hm
      have hgf : g.forcKeys = h1.forcKeys := by rw [hgH, frz.forcKeys, s2.forcKeys]
      rw [hgf] at hkm
      have hkT : k ≠ "Total_forcing" := by
        rintro rfl
        exact hct (by unfold reportName; rw [if_neg (by decide)])
      have hgy : g.years.length = (d0.nyend + 1 - d0.nystart).toNat := by
        rw [hgH, frz.years, s2.years, y1, pyRange_length]
      simp only
      rw [if_neg (by rw [hgy]; omega), sub_self, Int.toNat_zero, Option.some.injEq]
      have hv := hcomp k hkm hkT
      have hidx : (H (d.nystart + 1)).index d.nystart = .ok 0 := by
        rw [s2.index]
        unfold Handler.index
        rw [hy0, bind_ok]
        rw [y1, pyRange_length, sub_self]
        rw [if_neg (by omega)]
        simp only [Int.toNat_zero]
        rw [if_neg (by omega)]
      rw [hgH, frzf k d.nystart 0 (by omega) hidx, hv]
      simp only [hrn]
    · obtain ⟨k, hkm, rfl⟩ := List.mem_map.1 hm
      have hgp : g.prec = h0.prec := by rw [hgH, frz.prec, s2.prec, hprec]
      simp only
      rw [hgp] at hkm
      rw [hgp, hzero k, if_neg]
      rw [hrn]
      rintro rfl
      exact hnv (mem_cols hpre hkm (by decide))
  · have hst := start_total hy.forc hy0 hnp hfn (by rw [hfk]; simp) hg1 hj1 (fun c => by rw [hprec, hns]; exact hzero c)
    have := (addYearData_spec hnd hy.results).2.2.2.1
    rw [sub_self, Int.toNat_zero] at this
    have hfin := entry_final htr hnd "Total_forcing" (y := d.nystart) (le_refl _) (by omega)
    rw [sub_self, Int.toNat_zero] at hfin
    rw [hfin, this, hst]
    simp only [hland]

end

theorem reportConc_conc {κ : Type} {g : Handler ℝ κ} {k : String} (hk : k ∈ g.concKeys) (hg : k ∈ g.gas.keys) :
    (k, fun y => if y ∈ g.years then g.conc k y else none) ∈ reportConc g := by
  unfold reportConc
  refine List.mem_map.2 ⟨k, List.mem_filter.2 ⟨hg, by simp [hk]⟩, ?_⟩
  rw [Prod.mk.injEq]
  refine ⟨rfl, ?_⟩
  funext y
  simp only [if_pos hk]

/-- Non-vacuity of C07: the concentration-driven run of `Verif/Exec/RealRun.lean` over the reals meets
every hypothesis; its land use forcing of the start year is 2. -/
example : ∃ h d1 g, construct Exec.plainCarbon (Exec.plainInputs true) Exec.plainPam none = .ok h ∧
    run Exec.plainCarbon Exec.plainThermal (Exec.plainDriver h) ⟨none, none, none⟩ = .ok (d1, ()) ∧
    d1.source = .handler g ∧ entry d1.results "Total_forcing" 0 = some 2 ∧
    ∀ c ∈ reportForcing g 2000, c.1 ≠ "Total_forcing" → c.2 2000 = some (if c.1 = "LANDUSE" then 2 else 0) := by
  obtain ⟨h, d1, hc, hr⟩ := Exec.plain_runs true
  obtain ⟨g0, g, hre, hg, hs, hkeys, -⟩ := run_handler_spec rfl hr
  have hn : (Exec.plainInputs true).gas.keys.Nodup := by
    simp [Exec.plainInputs, Exec.plainGas, Dict.keys]
  have ht : RunTables (Exec.plainInputs true).concIn (Exec.plainInputs true).emis
      (Dict.set (Factory.checkPamset Exec.plainPam) "conc_run" (.bool (Exec.plainInputs true).concRun))
      2000 2002 2003 :=
    ⟨rfl, rfl, rfl, ⟨2000, 2006, rfl, by omega, by omega⟩, ⟨2000, 2006, rfl, by omega, by omega⟩, by omega,
      fun _ => by omega⟩
  have hpos : ∀ t ∈ ["CO2", "CH4", "N2O"], ∃ v, 0 < v ∧ g.conc t 2000 = some v := by
    intro t ht'
    have hcon := C12_conc_run yearLaw_real rfl ht hc rfl After.fresh hr hg
    obtain ⟨_, _, _, _, _, hpre, hgas, _, _, _, hyears⟩ := constructed hc ht
    obtain ⟨hvg, -, hsp⟩ := mem_spicy hpre
    obtain ⟨pam, c, -, -, rfl⟩ := reset_spec hre
    have hgk : g.gas.keys = (Exec.plainInputs true).gas.keys := by rw [hkeys, ← hgas]
    have hck : g.concKeys = concKeysOf (Exec.plainInputs true).gas h.prec.spicy := by rw [hs.concKeys, ← hgas]
    have hpg : h.prec.gases = ["CFC-11"] := by
      rw [show vanillaGases (Exec.plainInputs true).gas = .ok ["CFC-11"] from rfl, Except.ok.injEq] at hvg
      exact hvg.symm
    have hconc : g.concKeys = ["CO2", "CH4", "N2O"] := by
      rw [hck, hsp, hpg]
      rfl
    have hmem : t ∈ g.concKeys := by rw [hconc]; exact ht'
    have hmg : t ∈ g.gas.keys := by
      rw [hgk]
      simp only [List.mem_cons, List.not_mem_nil, or_false] at ht'
      rcases ht' with rfl | rfl | rfl <;> simp [Exec.plainInputs, Exec.plainGas, Dict.keys]
    have hne : t ≠ "TROP_O3" := by rintro rfl; revert ht'; decide
    have hcol : t ∈ (Exec.plainInputs true).concIn.cols := by
      simp only [List.mem_cons, List.not_mem_nil, or_false] at ht'
      rcases ht' with rfl | rfl | rfl <;> simp [Exec.plainInputs, Exec.plainConc]
    have := hcon _ (reportConc_conc hmem hmg) hne hcol 2000 (le_refl _) (by simp [Exec.plainDriver])
    have hy : (2000 : ℤ) ∈ g.years := by
      have e : g.years = h.years := hs.years
      rw [e, hyears, mem_pyRange]; omega
    simp only at this
    rw [if_pos hy] at this
    refine ⟨_, ?_, this⟩
    simp [Exec.plainInputs, Exec.plainConc]
  obtain ⟨l, h1, h2, h3⟩ := C07_run (es := 2002) (by simp [Exec.plainThermal, forcOutputList]) hn
    (by simp [Exec.plainInputs, Exec.plainGas, Dict.keys])
    (by simp [Exec.plainInputs, Exec.plainGas, Dict.get?]) rfl ht hc rfl After.fresh
    (by simp [Exec.plainPam, Dict.keys]) (by simp [Dict.keys]) hr hg hpos
  have hl : l = 2 := by simpa [Exec.plainDriver] using h1.symm
  subst hl
  refine ⟨h, d1, g, hc, hr, hg, ?_, h2⟩
  rw [h3, if_pos (by simp [Exec.plainInputs, Exec.plainGas, Dict.keys])]

end Verif.Props
