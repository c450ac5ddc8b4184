import Verif.Spec.Forcing
import Verif.Props.C07
import Verif.Lemmas.RunYear
import Verif.Lemmas.PlainRun

/-!
# C59 — the forcing of every component

The reported forcing of a component is the documented function of the reported concentrations, the
emissions and the parameters.
-/

namespace Verif.Props
open Verif.Py Verif.Py.Dict Verif.Model Verif.Model.Handler Verif.Model.Driver Verif.Spec

section
variable {κ τ : Type}

/-! ## C59, one year -/

theorem prefix2_iff (t : String) (a b : Char) :
    prefix2 t = String.ofList [a, b] ↔ [a, b] <+: t.toList := by
  unfold prefix2
  constructor
  · intro h
    have h' : t.toList.take 2 = [a, b] := by
      have := congrArg String.toList h
      simpa using this
    rw [← h']
    exact List.take_prefix _ _
  · rintro ⟨l, hl⟩
    rw [← hl]
    rfl

theorem alpha_ne (x : ℝ) : (!isEq x (0.0 : ℝ)) = true ↔ x ≠ 0 := by
  have : (0.0 : ℝ) = 0 := by norm_num
  rw [this, Bool.not_eq_true', ← Bool.not_eq_true, misEq]

theorem isAerosol_iff (t : String) : isAerosol t = true ↔ IsAerosol t := by
  have e : ∀ (p : String) (a b : Char), p = String.ofList [a, b] → (prefix2 t = p ↔ p.toList <+: t.toList) := by
    rintro p a b rfl
    rw [prefix2_iff, String.toList_ofList]
  have e1 := e "BC" 'B' 'C' (by simp)
  have e2 := e "OC" 'O' 'C' (by simp)
  have e3 := e "SO" 'S' 'O' (by simp)
  have e4 := e "BM" 'B' 'M' (by simp)
  have hu : isAerosol t = true ↔ (t = "NMVOC" ∨ t = "NH3" ∨ t = "NOx") ∨ (prefix2 t = "BC" ∨ prefix2 t = "OC" ∨ prefix2 t = "SO" ∨ prefix2 t = "BM") := by
    unfold isAerosol
    rw [Bool.or_eq_true, decide_eq_true_iff, decide_eq_true_iff, List.mem_cons, List.mem_cons, List.mem_singleton,
      List.mem_cons, List.mem_cons, List.mem_cons, List.mem_singleton]
  rw [hu, e1, e2, e3, e4]
  unfold IsAerosol
  constructor
  · rintro ((h | h | h) | (h | h | h | h))
    · exact Or.inl h
    · exact Or.inr (Or.inl h)
    · exact Or.inr (Or.inr (Or.inl h))
    · exact Or.inr (Or.inr (Or.inr ⟨_, by simp, h⟩))
    · exact Or.inr (Or.inr (Or.inr ⟨_, by simp, h⟩))
    · exact Or.inr (Or.inr (Or.inr ⟨_, by simp, h⟩))
    · exact Or.inr (Or.inr (Or.inr ⟨_, by simp, h⟩))
  · rintro (h | h | h | ⟨p, hp, h⟩)
    · exact Or.inl (Or.inl h)
    · exact Or.inl (Or.inr (Or.inl h))
    · exact Or.inl (Or.inr (Or.inr h))
    · right
      rw [List.mem_cons, List.mem_cons, List.mem_cons, List.mem_singleton] at hp
      rcases hp with rfl | rfl | rfl | rfl
      · exact Or.inl h
      · exact Or.inr (Or.inl h)
      · exact Or.inr (Or.inr (Or.inl h))
      · exact Or.inr (Or.inr (Or.inr h))

theorem aerosolSource_eq (t : String) : refEmissionSpecies.get? t = aerosolSource t := by
  unfold aerosolSource refEmissionSpecies
  simp only [get?_cons, get?_nil]
  by_cases h1 : t = "SO2"
  · subst h1; rfl
  rw [if_neg h1, if_neg (Ne.symm h1)]
  by_cases h2 : t = "SO4_IND"
  · subst h2; rfl
  rw [if_neg h2, if_neg (Ne.symm h2)]
  by_cases h3 : t = "BC"
  · subst h3; rfl
  rw [if_neg h3]
  by_cases h4 : t = "OC"
  · subst h4; rfl
  rw [if_neg h4, if_neg (Ne.symm h4), if_neg (Ne.symm h3)]
  by_cases h5 : t = "BMB_AEROS"
  · subst h5; rfl
  rw [if_neg h5, if_neg (Ne.symm h5)]
  by_cases h6 : t = "NMVOC"
  · subst h6; rfl
  rw [if_neg h6, if_neg (Ne.symm h6)]
  by_cases h7 : t = "NH3"
  · subst h7; rfl
  rw [if_neg h7, if_neg (Ne.symm h7)]
  by_cases h8 : t = "NOx"
  · subst h8; rfl
  rw [if_neg h8, if_neg (Ne.symm h8)]

theorem qCo2_eq (c c0 n n0 : ℝ) : qCo2 c c0 n n0 = co2Forcing c c0 n n0 := by
  unfold qCo2 co2Forcing
  rw [mlog, mabs]
  norm_num
  left
  ring

theorem qN2o_eq (c c0 n n0 m m0 : ℝ) : qN2o c c0 n n0 m m0 = n2oForcing n n0 c c0 m m0 := by
  unfold qN2o n2oForcing
  rw [msqrt, msqrt]
  norm_num
  left
  ring

theorem qCh4_eq (n n0 m m0 : ℝ) : qCh4 n n0 m m0 = ch4Forcing m m0 n n0 := by
  unfold qCh4 ch4Forcing
  rw [msqrt, msqrt]
  norm_num
  left
  ring

/-- `D` agrees with the handler's tables wherever they have a value. -/
structure DataOf (h : Handler ℝ κ) (luc : ℝ) (y0 y : ℤ) (D : ForcingData) : Prop where
  conc : ∀ t z v, y0 ≤ z → z ≤ y → h.concAt t z = .ok v → D.conc t z = v
  emis : ∀ t z v, h.emis.at' t z = .ok v → D.emis t z = v
  alpha : ∀ t g, h.gas.get? t = some g → D.alpha t = g.alpha
  sarf : ∀ t g, h.gas.get? t = some g → D.sarf t = g.sarf
  par : ∀ k v, pamF h.pam k = .ok v → D.par k = v
  landUse : D.landUse = luc
  start : D.start = y0
  year : D.year = y

theorem threeMain_forcing {h : Handler ℝ κ} {yr y0 : ℤ} {a : Acc ℝ} {D : ForcingData} {i : ℕ}
    (hst : D.start = y0) (hyr : D.year = yr)
    (hconc : ∀ t ∈ ["CO2", "N2O", "CH4"], ∀ z v, y0 ≤ z → z ≤ yr → h.concAt t z = .ok v → D.conc t z = v)
    (hsarf : ∀ t g, h.gas.get? t = some g → D.sarf t = g.sarf)
    (hy0 : h.y0 = .ok y0) (hi : h.index yr = .ok i) (e : threeMain h yr = .ok a) :
    ∀ t ∈ ["CO2", "N2O", "CH4"], a.forc t i = D.forcing t := by
  unfold threeMain at e
  simp only [bind_eq_ok] at e
  obtain ⟨y0', hy0', n0, hn0, n, hn, c0, hc0, c, hc, m0, hm0, m, hm, gc, hgc, gn, hgn, gm, hgm, i', hi', _, _,
    _, _, _, _, ha⟩ := e
  rw [hy0, Except.ok.injEq] at hy0'
  subst hy0'
  have hle : y0 ≤ yr := by
    obtain ⟨y1, e1, e2, -, -⟩ := index_spec hi
    rw [hy0, Except.ok.injEq] at e1
    omega
  rw [hi, Except.ok.injEq] at hi'
  subst hi'
  rw [pure_ok, Except.ok.injEq] at ha
  subst ha
  rw [gasAt_eq_ok] at hgc hgn hgm
  have k1 := hconc _ (by simp) _ _ (le_refl _) hle hn0
  have k2 := hconc _ (by simp) _ _ hle (le_refl _) hn
  have k3 := hconc _ (by simp) _ _ (le_refl _) hle hc0
  have k4 := hconc _ (by simp) _ _ hle (le_refl _) hc
  have k5 := hconc _ (by simp) _ _ (le_refl _) hle hm0
  have k6 := hconc _ (by simp) _ _ hle (le_refl _) hm
  have s1 := hsarf _ _ hgc
  have s2 := hsarf _ _ hgn
  have s3 := hsarf _ _ hgm
  intro t ht
  simp only [List.mem_cons, List.not_mem_nil, or_false] at ht
  rcases ht with rfl | rfl | rfl
  · simp [setForc, ForcingData.forcing, hst, hyr, k1, k2, k3, k4, s1, qCo2_eq]
  · simp [setForc, ForcingData.forcing, hst, hyr, k1, k2, k3, k4, k5, k6, s2, qN2o_eq]
  · simp [setForc, ForcingData.forcing, ForcingData.methane, hst, hyr, k1, k2, k5, k6, s3, qCh4_eq]

theorem forcing_ch4 (D : ForcingData) : D.forcing "CH4" = D.methane := by
  simp [ForcingData.forcing]

theorem not_aerosol_strings : ¬ IsAerosol "TROP_O3" ∧ ¬ IsAerosol "STRAT_H2O" := by
  rw [← isAerosol_iff, ← isAerosol_iff]
  decide +kernel

/-- One component other than the three main gases; `c` are the concentrations after its turn. -/
theorem tracer_forcing {h : Handler ℝ κ} {yr y0 : ℤ} {luc : ℝ} {a : Acc ℝ} {D : ForcingData} {i : ℕ} {t : String}
    {q : ℝ} {c : String → ℤ → Option ℝ} (hy0 : h.y0 = .ok y0) (hle : y0 ≤ yr)
    (hconc : ∀ z v, y0 ≤ z → z ≤ yr → Handler.concAt { h with conc := c } t z = .ok v → D.conc t z = v)
    (hemis : ∀ t z v, h.emis.at' t z = .ok v → D.emis t z = v)
    (halpha : ∀ t g, h.gas.get? t = some g → D.alpha t = g.alpha)
    (hsarf : ∀ t g, h.gas.get? t = some g → D.sarf t = g.sarf)
    (hpar : ∀ k v, pamF h.pam k = .ok v → D.par k = v)
    (hluc : D.landUse = luc) (hst : D.start = y0) (hyr : D.year = yr)
    (h4 : a.forc "CH4" i = D.methane) (ht : t ∉ ["CO2", "N2O", "CH4"]) (hg : t ∈ h.gas.keys)
    (e : tracerForcing h yr luc a i t = .ok (q, c)) : q = D.forcing t := by
  simp only [List.mem_cons, List.not_mem_nil, or_false, not_or] at ht
  obtain ⟨n1, n2, n3⟩ := ht
  unfold ForcingData.forcing
  rw [if_neg n1, if_neg n3, if_neg n2]
  unfold tracerForcing at e
  by_cases c1 : t = "LANDUSE"
  · rw [if_pos c1, Except.ok.injEq, Prod.mk.injEq] at e
    rw [if_pos c1, hluc, e.1]
  rw [if_neg c1] at e ⊢
  by_cases c2 : isAerosol t = true
  · rw [if_pos c2, bind_eq_ok] at e
    obtain ⟨q', hq, e⟩ := e
    rw [pure_ok, Except.ok.injEq, Prod.mk.injEq] at e
    obtain ⟨rfl, -⟩ := e
    rw [if_pos ((isAerosol_iff t).1 c2)]
    unfold aerosolForcing at hq
    simp only [bind_eq_ok] at hq
    obtain ⟨y, hy, g, hgt, hq⟩ := hq
    rw [hy0, Except.ok.injEq] at hy
    subst hy
    rw [gasAt_eq_ok] at hgt
    unfold ForcingData.aerosol ForcingData.emisChange
    rw [halpha _ _ hgt, hst, hyr]
    split at hq
    · rename_i hne
      simp only [bind_eq_ok] at hq
      obtain ⟨x, hx, x', hx', hq⟩ := hq
      rw [pure_ok, Except.ok.injEq] at hq
      rw [if_pos, hemis _ _ _ hx, hemis _ _ _ hx', ← hq]
      · ring
      · exact (alpha_ne _).1 hne
    · rename_i hne
      have h0 : g.alpha = 0 := not_not.1 (fun x => hne ((alpha_ne _).2 x))
      rw [if_neg (by simp [h0]), ← aerosolSource_eq]
      split at hq
      · rename_i hs
        rw [hs]
        rw [Except.ok.injEq] at hq
        rw [← hq]
        norm_num
      · rename_i sp hs
        rw [hs]
        simp only [bind_eq_ok] at hq
        obtain ⟨x, hx, x', hx', p, hp, hq⟩ := hq
        rw [pure_ok, Except.ok.injEq] at hq
        simp only
        rw [hemis _ _ _ hx, hemis _ _ _ hx', hpar _ _ hp, ← hq]
  rw [if_neg c2] at e
  rw [if_neg (fun x => c2 ((isAerosol_iff t).2 x))]
  obtain ⟨g, hgt⟩ := (get?_isSome_iff _ _).2 hg
  by_cases c3 : hasAlpha h t = true
  · rw [if_pos c3] at e
    have hne : g.alpha ≠ 0 := by
      unfold hasAlpha at c3
      rw [hgt] at c3
      exact (alpha_ne _).1 c3
    simp only [bind_eq_ok] at e
    obtain ⟨y, hy, c', hc', c0, hc0, g', hgt', e⟩ := e
    rw [hy0, Except.ok.injEq] at hy
    subst hy
    rw [gasAt_eq_ok, hgt, Option.some.injEq] at hgt'
    subst hgt'
    rw [pure_ok, Except.ok.injEq, Prod.mk.injEq] at e
    obtain ⟨e1, e2⟩ := e
    rw [halpha _ _ hgt, if_pos hne, hsarf _ _ hgt, hst, hyr]
    rw [← e2] at hconc
    rw [hconc _ _ hle (le_refl _) hc', hconc _ _ (le_refl _) hle hc0, ← e1]
    ring
  rw [if_neg c3] at e
  have h0 : g.alpha = 0 := by
    unfold hasAlpha at c3
    rw [hgt] at c3
    exact not_not.1 (fun x => c3 ((alpha_ne _).2 x))
  rw [halpha _ _ hgt, if_neg (by simp [h0])]
  by_cases c4 : t = "TROP_O3"
  · rw [if_pos c4] at e
    rw [if_pos c4]
    subst c4
    simp only [bind_eq_ok] at e
    obtain ⟨⟨q', c'⟩, hq, g', hgt', e⟩ := e
    rw [pure_ok, Except.ok.injEq, Prod.mk.injEq] at e
    obtain ⟨e1, e2⟩ := e
    simp only at e1 e2
    rw [gasAt_eq_ok, hgt, Option.some.injEq] at hgt'
    subst hgt'
    unfold tropO3Forcing at hq
    simp only [bind_eq_ok] at hq
    obtain ⟨y, hy, v, hv, u, hu, v0, hv0, p, hp, hq⟩ := hq
    rw [hy0, Except.ok.injEq] at hy
    subst hy
    unfold needKey at hu
    split at hu
    swap
    · cases hu
    rename_i hmem
    unfold accConc at hv0
    unfold ForcingData.ozone
    simp only
    rw [hsarf _ _ hgt, hst, hyr, hpar _ _ hp]
    have hcc : c = fun t y => if t = "TROP_O3" ∧ y = yr then some v else a.conc t y := by
      split at hq <;> rw [pure_ok, Except.ok.injEq, Prod.mk.injEq] at hq <;> rw [← e2, ← hq.2]
    rw [← hcc] at hv0
    rw [hconc _ _ (le_refl _) hle hv0, hconc yr v hle (le_refl _) (by
      unfold Handler.concAt
      simp only
      rw [if_pos hmem, hcc]
      simp)]
    split at hq
    · rename_i heq
      rw [pure_ok, Except.ok.injEq, Prod.mk.injEq] at hq
      have : v0 = 30 := by
        have := heq
        simp only [misEq] at this
        rw [this]; norm_num
      rw [if_pos this, ← e1, ← hq.1]
      norm_num
    · rename_i heq
      rw [pure_ok, Except.ok.injEq, Prod.mk.injEq] at hq
      have : v0 ≠ 30 := by
        intro h30
        apply heq
        simp only [misEq]
        rw [h30]; norm_num
      rw [if_neg this, ← e1, ← hq.1]
      have : (30.0 : ℝ) = 30 := by norm_num
      rw [this]
      ring
  rw [if_neg c4] at e
  rw [if_neg c4]
  by_cases c5 : t = "STRAT_H2O"
  · rw [if_pos c5] at e
    rw [if_pos c5]
    subst c5
    simp only [bind_eq_ok] at e
    obtain ⟨p, hp, g', hgt', e⟩ := e
    rw [pure_ok, Except.ok.injEq, Prod.mk.injEq] at e
    rw [gasAt_eq_ok, hgt, Option.some.injEq] at hgt'
    subst hgt'
    rw [hsarf _ _ hgt, hpar _ _ hp, ← e.1, h4]
    ring
  rw [if_neg c5, Except.ok.injEq, Prod.mk.injEq] at e
  rw [if_neg c5, ← e.1]
  norm_num

/-- Only tropospheric ozone, in its own turn, changes concentrations. -/
theorem tracerForcing_conc {h : Handler ℝ κ} {yr : ℤ} {luc : ℝ} {a : Acc ℝ} {i : ℕ} {t : String} {q : ℝ}
    {c : String → ℤ → Option ℝ} (e : tracerForcing h yr luc a i t = .ok (q, c)) (s : String)
    (hs : s ≠ "TROP_O3" ∨ t ≠ "TROP_O3") : c s = a.conc s := by
  unfold tracerForcing at e
  by_cases c1 : t = "LANDUSE"
  · rw [if_pos c1, Except.ok.injEq, Prod.mk.injEq] at e; rw [← e.2]
  rw [if_neg c1] at e
  by_cases c2 : isAerosol t = true
  · rw [if_pos c2, bind_eq_ok] at e
    obtain ⟨q, -, e⟩ := e
    rw [pure_ok, Except.ok.injEq, Prod.mk.injEq] at e; rw [← e.2]
  rw [if_neg c2] at e
  by_cases c3 : hasAlpha h t = true
  · rw [if_pos c3] at e
    simp only [bind_eq_ok] at e
    obtain ⟨y0, -, c, -, c0, -, g, -, e⟩ := e
    rw [pure_ok, Except.ok.injEq, Prod.mk.injEq] at e; rw [← e.2]
  rw [if_neg c3] at e
  by_cases c4 : t = "TROP_O3"
  · have hs := hs.resolve_right (not_not.2 c4)
    rw [if_pos c4] at e
    simp only [bind_eq_ok] at e
    obtain ⟨q, hq, g, -, e⟩ := e
    rw [pure_ok, Except.ok.injEq, Prod.mk.injEq] at e
    rw [← e.2]
    unfold tropO3Forcing at hq
    simp only [bind_eq_ok] at hq
    obtain ⟨y, hy, v, hv, u, hu, v0, hv0, p, hp, hq⟩ := hq
    funext z
    split at hq <;> rw [pure_ok, Except.ok.injEq] at hq <;> rw [← hq] <;> simp [hs]
  rw [if_neg c4] at e
  by_cases c5 : t = "STRAT_H2O"
  · rw [if_pos c5] at e
    simp only [bind_eq_ok] at e
    obtain ⟨q, -, g, -, e⟩ := e
    rw [pure_ok, Except.ok.injEq, Prod.mk.injEq] at e; rw [← e.2]
  rw [if_neg c5, Except.ok.injEq, Prod.mk.injEq] at e
  rw [← e.2]

theorem forcLoop_conc {h : Handler ℝ κ} {yr : ℤ} {luc : ℝ} {i : ℕ} :
    ∀ (ks : List String) (a a' : Acc ℝ), ks.foldlM (forcStep h yr luc i) a = .ok a' →
      ∀ s, (s ≠ "TROP_O3" ∨ "TROP_O3" ∉ ks) → a'.conc s = a.conc s
  | [], a, a', e, s, _ => by rw [foldlM_nil_ok] at e; rw [e]
  | t :: ks, a, a', e, s, hs => by
    obtain ⟨b, e1, e2⟩ := foldlM_cons_ok.1 e
    have hb : b.conc s = a.conc s := by
      by_cases ht : t ∈ ["CO2", "N2O", "CH4"]
      · rw [forcStep_main ht, Except.ok.injEq] at e1; rw [e1]
      · obtain ⟨q, c, hq, -, -, -, -, hc⟩ := forcStep_other ht e1
        rw [hc]
        refine tracerForcing_conc hq s ?_
        rcases hs with hs | hs
        · exact Or.inl hs
        · exact Or.inr (fun x => hs (x ▸ List.mem_cons_self))
    rw [forcLoop_conc ks b a' e2 s (hs.imp id (fun h x => h (List.mem_cons_of_mem _ x))), hb]

theorem forcLoop_forcing {h : Handler ℝ κ} {yr y0 : ℤ} {luc : ℝ} {i : ℕ} {D : ForcingData} (hy0 : h.y0 = .ok y0)
    (hle : y0 ≤ yr) :
    ∀ (ks : List String) (a a' : Acc ℝ), ks.Nodup → DataOf { h with conc := a'.conc } luc y0 yr D →
      a.forc "CH4" i = D.methane → ks.foldlM (forcStep h yr luc i) a = .ok a' →
      ∀ t ∈ worked ks, t ∈ h.gas.keys → a'.forc t i = D.forcing t
  | [], _, _, _, _, _, _, t, ht, _ => by simp [worked] at ht
  | s :: ks, a, a', hnd, hD, h4, e, t, ht, hg => by
    obtain ⟨b, e1, e2⟩ := foldlM_cons_ok.1 e
    obtain ⟨hns, hnd'⟩ := List.nodup_cons.1 hnd
    by_cases hs : s ∈ ["CO2", "N2O", "CH4"]
    · rw [forcStep_main hs, Except.ok.injEq] at e1
      subst e1
      refine forcLoop_forcing hy0 hle ks a a' hnd' hD h4 e2 t ?_ hg
      have h2 := (List.mem_filter.1 ht)
      refine List.mem_filter.2 ⟨(List.mem_cons.1 h2.1).resolve_left ?_, h2.2⟩
      rintro rfl
      exact (decide_eq_true_iff.1 h2.2) hs
    · obtain ⟨q, c, hq, -, -, -, hf, hc⟩ := forcStep_other hs e1
      have h4' : b.forc "CH4" i = D.methane := by
        rw [hf, ← h4]
        unfold setForc
        rw [if_neg]
        rintro ⟨rfl, -⟩
        exact hs (by simp)
      by_cases hts : t = s
      · subst hts
        rw [(forcLoop_spec ks b a' hnd' e2).1 t i (Or.inl fun x => hns (List.mem_filter.1 x).1), hf]
        have hv : setForc a.forc t i q t i = q := by simp [setForc]
        rw [hv]
        have hct : c t = a'.conc t := by
          rw [← hc]
          refine (forcLoop_conc ks b a' e2 t ?_).symm
          by_cases h3 : t = "TROP_O3"
          · exact Or.inr (h3 ▸ hns)
          · exact Or.inl h3
        refine tracer_forcing hy0 hle ?_ hD.emis hD.alpha hD.sarf hD.par hD.landUse hD.start hD.year h4 hs hg hq
        intro z v hz0 hzle hz
        refine hD.conc t z v hz0 hzle ?_
        rw [← hz]
        unfold Handler.concAt
        simp only [hct]
      · refine forcLoop_forcing hy0 hle ks b a' hnd' hD h4' e2 t ?_ hg
        have h2 := (List.mem_filter.1 ht)
        exact List.mem_filter.2 ⟨(List.mem_cons.1 h2.1).resolve_left hts, h2.2⟩

/-- What the perturbation table of a run adds to a component in a year. -/
noncomputable def pertOf (rows : Option (List (PertRow ℝ))) (k : String) (yr : ℤ) : ℝ :=
  match rows with
  | none => 0
  | some rows => pertSum rows k yr

/-- C59, one year: whatever the emissions, concentrations and parameters, each component array of the
run gets the documented forcing (of the concentrations the year ends with), plus the perturbations
that name it. -/
theorem C59_year {h h' : Handler ℝ κ} {yr y0 : ℤ} {luc sun : ℝ} {r : ForcResult ℝ}
    (hc : conc2forc h yr luc sun = .ok (r, h')) (hy0 : h.y0 = .ok y0) (hk : h.forcKeys.Nodup)
    {D : ForcingData} (hD : DataOf h' luc y0 yr D) {k : String} (hkm : k ∈ h.forcKeys)
    (hT : k ≠ "Total_forcing") (hg : k ∈ h.gas.keys) :
    h'.forc k (yr - y0).toNat = D.forcing k + pertOf h.pert k yr := by
  obtain ⟨y0', a0, a1, v, a3, e0, hle, hlt, h0, hi, h1, hv, h3, he⟩ := conc2forc_inv hc
  rw [hy0, Except.ok.injEq] at e0
  subst e0
  have hf : a3.forc = (addPert h y0 yr { a1 with tot := a1.tot + v, nh := a1.nh + v, sh := a1.sh + v }).forc ∧
      a3.conc = (addPert h y0 yr { a1 with tot := a1.tot + v, nh := a1.nh + v, sh := a1.sh + v }).conc := by
    unfold applyJustOne at h3
    split at h3
    · rw [Except.ok.injEq] at h3; subst h3; exact ⟨rfl, rfl⟩
    · rw [bind_eq_ok] at h3
      obtain ⟨k, _, h3⟩ := h3
      rw [pure_ok, Except.ok.injEq] at h3
      subst h3
      exact ⟨rfl, rfl⟩
  have hpc : a3.conc = a1.conc := by
    rw [hf.2]; unfold addPert; split <;> rfl
  unfold finishForc at he
  simp only [Prod.mk.injEq] at he
  have hD1 : DataOf { h with conc := a1.conc } luc y0 yr D := by
    rw [he.2, hpc] at hD
    exact ⟨hD.conc, hD.emis, hD.alpha, hD.sarf, hD.par, hD.landUse, hD.start, hD.year⟩
  have hD0 : ∀ t ∈ ["CO2", "N2O", "CH4"], a0.forc t (yr - y0).toNat = D.forcing t := by
    have hc0 : a0.conc = h.conc := by
      obtain ⟨_, _, _, _, _, _, _, _, hc0, _⟩ := threeMain_spec h0
      exact hc0
    have hcc : ∀ s, s ≠ "TROP_O3" → a1.conc s = h.conc s := fun s hs => by
      rw [forcLoop_conc _ _ _ h1 s (Or.inl hs), hc0]
    refine threeMain_forcing (h := h) hD1.start hD1.year ?_ hD1.sarf hy0 hi h0
    intro t ht z v hz0 hzle hz
    refine hD1.conc t z v hz0 hzle ?_
    rw [← hz]
    unfold Handler.concAt
    simp only
    rw [hcc t (by rintro rfl; revert ht; decide)]
  have hall : a1.forc k (yr - y0).toNat = D.forcing k := by
    by_cases hm : k ∈ ["CO2", "N2O", "CH4"]
    · rw [(forcLoop_spec _ _ _ hk h1).1 k _ (Or.inl fun x => (decide_eq_true_iff.1 (List.mem_filter.1 x).2) hm)]
      exact hD0 k hm
    · exact forcLoop_forcing hy0 hle _ _ _ hk hD1 (by rw [hD0 _ (by simp), forcing_ch4]) h1 k
        (List.mem_filter.2 ⟨hkm, by simpa using hm⟩) hg
  rw [he.2]
  simp only [setForc, hT, false_and, if_false]
  rw [hf.1]
  unfold addPert pertOf
  cases hp : h.pert with
  | none => simp only; rw [hall, add_zero]
  | some rows =>
    simp only
    rw [C09_component rows h.forcKeys y0 yr _ k hkm]
    simp only
    rw [hall]

/-! ## C59, whole runs -/

/-- `D` collects what a user sees of a run: reported concentrations, the emissions after perturbation,
the gas table, the parameters in effect, the land use forcing. -/
structure Observed (g : Handler ℝ κ) (i : Inputs ℝ) (emis : Frame ℝ) (luc : ℝ) (ns y : ℤ) (D : ForcingData) : Prop where
  conc : ∀ c ∈ reportConc g, ∀ z v, c.2 z = some v → D.conc c.1 z = v
  emis : ∀ t z v, emis.at' t z = .ok v → D.emis t z = v
  alpha : ∀ t x, i.gas.get? t = some x → D.alpha t = x.alpha
  sarf : ∀ t x, i.gas.get? t = some x → D.sarf t = x.sarf
  par : ∀ k v, pamF g.pam k = .ok v → D.par k = v
  landUse : D.landUse = luc
  start : D.start = ns
  year : D.year = y

/-- Such a collection always exists. -/
theorem observed_exists (g : Handler ℝ κ) (i : Inputs ℝ) (emis : Frame ℝ) (luc : ℝ) (ns y : ℤ)
    (hn : g.gas.keys.Nodup) : ∃ D, Observed g i emis luc ns y D := by
  refine ⟨⟨fun t z => (((reportConc g).lookup t).bind (fun f => f z)).getD 0,
    fun t z => match emis.at' t z with | .ok v => v | .error _ => 0,
    fun t => ((i.gas.get? t).map Gas.alpha).getD 0, fun t => ((i.gas.get? t).map Gas.sarf).getD 0,
    fun k => match pamF g.pam k with | .ok v => v | .error _ => 0, luc, ns, y⟩, ?_, ?_, ?_, ?_, ?_, rfl, rfl, rfl⟩
  · intro c hc z v hv
    have key : ∀ (l : List (String × (ℤ → Option ℝ))), (l.map Prod.fst).Nodup → c ∈ l → l.lookup c.1 = some c.2 := by
      intro l
      induction l with
      | nil => intro _ h; cases h
      | cons x l ih =>
        intro hnd hm
        rw [List.map_cons, List.nodup_cons] at hnd
        rcases List.mem_cons.1 hm with rfl | hm'
        · obtain ⟨c1, c2⟩ := c
          simp
        · obtain ⟨x1, x2⟩ := x
          have : c.1 ≠ x1 := fun e => hnd.1 (List.mem_map.2 ⟨c, hm', e⟩)
          have hb : (c.1 == x1) = false := by simpa using this
          rw [List.lookup_cons, hb]
          exact ih hnd.2 hm'
    have hnd : ((reportConc g).map Prod.fst).Nodup := by
      unfold reportConc
      rw [List.map_map]
      have : (Prod.fst ∘ fun k : String => (k, fun y : ℤ => if y ∈ g.years then
          if k ∈ g.concKeys then g.conc k y else (g.prec.conc.lookup y).map (fun r => r k) else none)) = id := rfl
      rw [this, List.map_id]
      exact hn.filter _
    simp only
    rw [key _ hnd hc, Option.bind_some, hv]
    rfl
  · intro t z v hv
    simp only [hv]
  · intro t x hx
    simp [hx]
  · intro t x hx
    simp [hx]
  · intro k v hv
    simp only [hv]

/-- The name a component is reported under. -/
def columnName (k : String) : String := if k = "SO2" then "SO4_DIR" else k

theorem reportName_eq : reportName = columnName := rfl

/-- What a run year fixes: the data set of the year's handler. -/
theorem dataOf_year {cops : CarbonOps ℝ κ} {i : Inputs ℝ} {es ns ne : ℤ} {h0 g : Handler ℝ κ} {emis : Frame ℝ}
    {a b c : Handler ℝ κ} {fb : Option (Dict ℝ)} {luc sun : ℝ} {r : ForcResult ℝ} {y : ℤ}
    (Y : RunYear cops i es ns ne h0 g emis a b c fb luc sun r y) (h2 : y ≤ ne)
    (hcg : ∀ t ∈ g.concKeys, t ∈ i.gas.keys)
    {D : ForcingData} (hD : Observed g i emis luc ns y D) :
    DataOf c luc ns y D where
  conc := by
    intro t z v hz2 hz hv
    unfold Handler.concAt at hv
    split at hv
    swap
    · cases hv
    rename_i hk
    split at hv
    swap
    · cases hv
    rename_i w hw
    rw [Except.ok.injEq] at hv
    subst hv
    have hkg : t ∈ g.concKeys := by rw [Y.sameG.concKeys]; exact hk
    refine hD.conc _ (reportConc_conc hkg (by rw [Y.keysG]; exact hcg t hkg)) z w ?_
    simp only
    rw [if_pos, Y.concZ t z hz, hw]
    rw [Y.sameG.years, Y.sameC.years, Y.sameB.years, Y.years, mem_pyRange]
    omega
  emis := by
    intro t z v hv
    rw [Y.sameC.emis, Y.sameB.emis, Y.emis] at hv
    exact hD.emis t z v hv
  alpha := by
    intro t x hx
    have := Y.gas t
    rw [← Y.sameB.gas_canon, ← Y.sameC.gas_canon, hx, Option.map_some] at this
    cases hi : i.gas.get? t with
    | none => rw [hi] at this; cases this
    | some x' =>
      rw [hi, Option.map_some, Option.some.injEq] at this
      rw [hD.alpha t x' hi]
      unfold canon at this
      split at this
      · simpa using (congrArg Gas.alpha this).symm
      · rw [this]
  sarf := by
    intro t x hx
    have := Y.gas t
    rw [← Y.sameB.gas_canon, ← Y.sameC.gas_canon, hx, Option.map_some] at this
    cases hi : i.gas.get? t with
    | none => rw [hi] at this; cases this
    | some x' =>
      rw [hi, Option.map_some, Option.some.injEq] at this
      rw [hD.sarf t x' hi]
      unfold canon at this
      split at this
      · simpa using (congrArg Gas.sarf this).symm
      · rw [this]
  par := by
    intro k v hv
    rw [← Y.sameG.pam] at hv
    exact hD.par k v hv
  landUse := hD.landUse
  start := hD.start
  year := hD.year

/-- The rows whose forcing is computed year by year: those without a concentration unit, and the three
main gases; stratospheric ozone is computed ahead, and a row named `CO2.1` is left out. -/
def Yearly (gas : Dict (Gas ℝ)) (k : String) : Prop :=
  ∃ x, gas.get? k = some x ∧ (x.concUnit = "-" ∨ k = "CO2" ∨ k = "CH4" ∨ k = "N2O") ∧
    k ≠ "STRAT_O3" ∧ k ≠ "CO2.1"

/-- The rows whose concentration and forcing are computed ahead. -/
def Ahead (gas : Dict (Gas ℝ)) (k : String) : Prop :=
  ∃ x, gas.get? k = some x ∧ x.concUnit ≠ "-" ∧ k ≠ "CO2" ∧ k ≠ "CH4" ∧ k ≠ "N2O"

theorem mem_vanilla {gas : Dict (Gas ℝ)} {vs : List String} (hn : gas.keys.Nodup) (e : vanillaGases gas = .ok vs)
    (k : String) : k ∈ vs ↔ Ahead gas k := by
  unfold vanillaGases at e
  split at e
  · rw [Except.ok.injEq] at e
    rw [← e, List.mem_map]
    constructor
    · rintro ⟨q, hq, rfl⟩
      obtain ⟨hq2, hq3⟩ := List.mem_filter.1 hq
      simp only [decide_eq_true_eq] at hq3
      refine ⟨q.2, Dict.get?_of_mem hn hq2, hq3.1, ?_, ?_, ?_⟩ <;>
      · intro h; exact hq3.2 (by simp [h])
    · rintro ⟨x, hx, h1, h2, h3, h4⟩
      exact ⟨(k, x), List.mem_filter.2 ⟨Dict.mem_of_get? hx, by simp [h1, h2, h3, h4]⟩, rfl⟩
  · cases e

/-- C59: in every run of an instance, new or after any history, and in every run year, the reported
forcing of each component computed in the run is the documented function of the reported
concentrations, the emissions and the parameters, plus the forcing perturbations that name it. -/
theorem C59_run {cops : CarbonOps ℝ κ} {tops : ThermalOps ℝ τ} {d0 d d1 : Driver ℝ κ}
    {i : Inputs ℝ} {pamset carb : Option (Dict (PyVal ℝ))} {h0 g : Handler ℝ κ} {es : ℤ}
    {ps : List (RunPams ℝ)} {p : RunPams ℝ} {t : τ} (hgas : i.gas.keys.Nodup)
    (hTg : "Total_forcing" ∉ i.gas.keys)
    (ht : RunTables i.concIn i.emis (Dict.set (Factory.checkPamset pamset) "conc_run" (.bool i.concRun))
      d0.nystart es d0.nyend)
    (hc : construct cops i pamset carb = .ok h0) (hd0 : d0.source = .handler h0)
    (ha : After cops tops d0 ps d) (hr : run cops tops d p = .ok (d1, t)) (hg : d1.source = .handler g)
    {y : ℤ} (hy1 : d0.nystart ≤ y) (hy2 : y ≤ d0.nyend) :
    ∃ emis luc, perturbedEmis i = .ok emis ∧ d0.luc[(y - d0.nystart).toNat]? = some luc ∧
      ∀ D, Observed g i emis luc d0.nystart y D → ∀ k, Yearly i.gas k →
        ∃ c ∈ reportForcing g d0.nystart, c.1 = columnName k ∧
          c.2 y = some (D.forcing k + pertOf i.pertForc k y) := by
  obtain ⟨emis, a, b, c, fb, luc, sun, r, Y, hluc, -⟩ := run_year yearLaw_real ht hc hd0 ha hr hg hy1 hy2
  refine ⟨emis, luc, Y.emisE, hluc, ?_⟩
  intro D hD k hk
  obtain ⟨emis', cl, br, he, ht2, hpre, hcg, hci, hce, hcp, hcy⟩ := constructed hc ht
  obtain ⟨hvg, -, hsp⟩ := mem_spicy hpre
  have hcc : ∀ t ∈ g.concKeys, t ∈ i.gas.keys := by
    intro t htm
    obtain ⟨h, hd, -, kept, -⟩ := after_spec yearLaw_real hd0 ha (fun _ => True) trivial
      (fun _ _ _ _ _ _ _ => trivial) (fun _ _ _ _ _ _ => trivial)
    obtain ⟨g0, g', hre, hg', hs, -, -⟩ := run_handler_spec hd hr
    rw [hg] at hg'
    cases hg'
    obtain ⟨pam, c, -, -, rfl⟩ := reset_spec hre
    rw [hs.concKeys] at htm
    simp only [concKeysOf] at htm
    rw [kept.prec, hsp] at htm
    exact (List.mem_filter.1 (List.mem_filter.1 htm).1).1
  have hfk : b.forcKeys = h0.prec.spicy.filter (fun t => t ≠ "CO2.1") ++ ["Total_forcing"] := by
    rw [Y.sameB.forcKeys, Y.forcKeys]
    unfold forcKeysOf
    rw [if_neg]
    intro h
    have := (List.mem_filter.1 h).1
    rw [hsp] at this
    exact hTg (List.mem_filter.1 this).1
  have hspn : h0.prec.spicy.Nodup := by rw [hsp]; exact hgas.filter _
  have hfn : b.forcKeys.Nodup := by
    rw [hfk, List.nodup_append]
    refine ⟨hspn.filter _, by simp, ?_⟩
    intro x hx z hz hab
    simp only [List.mem_cons, List.not_mem_nil, or_false] at hz
    subst hab; subst hz
    have := (List.mem_filter.1 hx).1
    rw [hsp] at this
    exact hTg (List.mem_filter.1 this).1
  obtain ⟨x, hx, hu, hs3, hc1⟩ := hk
  have hkg : k ∈ i.gas.keys := (get?_isSome_iff _ _).1 ⟨x, hx⟩
  have hkT : k ≠ "Total_forcing" := by rintro rfl; exact hTg hkg
  have hnv : k ∉ h0.prec.gases := by
    rw [mem_vanilla hgas hvg]
    rintro ⟨x', hx', h1, h2, h3, h4⟩
    rw [hx, Option.some.injEq] at hx'
    subst hx'
    exact hu.elim h1 (fun h => h.elim h2 (fun h => h.elim h3 h4))
  have hkf : k ∈ b.forcKeys := by
    rw [hfk]
    refine List.mem_append_left _ (List.mem_filter.2 ⟨?_, by simpa using hc1⟩)
    rw [hsp]
    exact List.mem_filter.2 ⟨hkg, by simp [hnv, hs3]⟩
  have hyrs : b.years = pyRange d0.nystart (d0.nyend + 1) := by rw [Y.sameB.years, Y.years]
  have hy0 : b.y0 = .ok d0.nystart := y0_pyRange hyrs (by omega)
  have key := C59_year Y.forc hy0 hfn (dataOf_year Y hy2 hcc hD) hkf hkT (by rw [Y.keysB]; exact hkg)
  refine ⟨(reportName k, fun z => if z < d0.nystart ∨ g.years.length ≤ (z - d0.nystart).toNat then none
    else some (g.forc k (z - d0.nystart).toNat)), ?_, rfl, ?_⟩
  · unfold reportForcing
    refine List.mem_append_left _ (List.mem_map.2 ⟨k, ?_, rfl⟩)
    rw [Y.sameG.forcKeys, Y.sameC.forcKeys]
    exact hkf
  · have hgy : g.years.length = (d0.nyend + 1 - d0.nystart).toNat := by
      rw [Y.sameG.years, Y.sameC.years, hyrs, pyRange_length]
    simp only
    rw [if_neg (by rw [hgy]; omega), Y.forcY, key, Y.sameB.pert, Y.pert]

/-- C59, gases computed ahead (without forcing perturbations): radiative efficiency times the change of
the reported concentration since the start year, with the ERF factor. -/
theorem C59_run_ahead {cops : CarbonOps ℝ κ} {tops : ThermalOps ℝ τ} {d0 d d1 : Driver ℝ κ}
    {i : Inputs ℝ} {pamset carb : Option (Dict (PyVal ℝ))} {h0 g : Handler ℝ κ} {es : ℤ}
    {ps : List (RunPams ℝ)} {p : RunPams ℝ} {t : τ} (hgas : i.gas.keys.Nodup) (hpert : i.pertForc = none)
    (ht : RunTables i.concIn i.emis (Dict.set (Factory.checkPamset pamset) "conc_run" (.bool i.concRun))
      d0.nystart es d0.nyend)
    (hc : construct cops i pamset carb = .ok h0) (hd0 : d0.source = .handler h0)
    (ha : After cops tops d0 ps d) (hr : run cops tops d p = .ok (d1, t)) (hg : d1.source = .handler g)
    {y : ℤ} (hy1 : d0.nystart ≤ y) (hy2 : y ≤ d0.nyend) {k : String} {x : Gas ℝ} (hk : Ahead i.gas k)
    (hx : i.gas.get? k = some x) (hs3 : k ≠ "STRAT_O3") :
    ∃ c ∈ reportForcing g d0.nystart, ∃ conc ∈ reportConc g, ∃ v v0, c.1 = columnName k ∧ conc.1 = k ∧
      conc.2 y = some v ∧ conc.2 d0.nystart = some v0 ∧ c.2 y = some (x.sarf * x.alpha * (v - v0)) := by
  obtain ⟨emis, a, b, c, fb, luc, sun, r, Y, hluc, -⟩ := run_year yearLaw_real ht hc hd0 ha hr hg hy1 hy2
  obtain ⟨emis', cl, br, he, ht2, hpre, hcg, hci, hce, hcp, hcy⟩ := constructed hc ht
  obtain ⟨hvg, hpc, hsp⟩ := mem_spicy hpre
  rw [hpert] at hpre
  have hkv : k ∈ h0.prec.gases := (mem_vanilla hgas hvg k).2 hk
  have hkg : k ∈ i.gas.keys := (get?_isSome_iff _ _).1 ⟨x, hx⟩
  obtain ⟨hrows, -, -⟩ := precalcConc_rows hpc (concRun_pam _ _) ht2
  have hrows' : h0.prec.conc.map Prod.fst = pyRange d0.nystart (d0.nyend + 1) := by
    rw [hrows, List.map_map]; simp [Function.comp_def]
  obtain ⟨so3, late, -, -, -, -, hcols, hval⟩ := precalculate_spec (by omega) hpre hrows'
  have hgp : g.prec = h0.prec := by rw [Y.sameG.prec, Y.sameC.prec, Y.sameB.prec, Y.prec]
  have hnc : k ∉ g.concKeys := by
    obtain ⟨h, hd, -, kept, -⟩ := after_spec yearLaw_real hd0 ha (fun _ => True) trivial
      (fun _ _ _ _ _ _ _ => trivial) (fun _ _ _ _ _ _ => trivial)
    obtain ⟨g0, g', hre, hg', hs, -, -⟩ := run_handler_spec hd hr
    rw [hg] at hg'
    cases hg'
    obtain ⟨pam, c, -, -, rfl⟩ := reset_spec hre
    rw [hs.concKeys]
    simp only [concKeysOf]
    intro hm
    rw [kept.prec, hsp] at hm
    have := (List.mem_filter.1 (List.mem_filter.1 hm).1).2
    simp only [decide_eq_true_eq] at this
    exact this.1 hkv
  have hgy : g.years = pyRange d0.nystart (d0.nyend + 1) := by
    rw [Y.sameG.years, Y.sameC.years, Y.sameB.years, Y.years]
  have hlook : ∀ z, d0.nystart ≤ z → z ≤ d0.nyend → (h0.prec.conc.lookup z).map (fun r => r k) =
      some (rowVal h0.prec.conc k z) := by
    intro z z1 z2
    unfold rowVal
    rw [hrows, lookup_map_pyRange, if_pos (by omega)]
    rfl
  refine ⟨(reportName k, fun y => g.prec.erf.val k y), ?_, (k, fun z => if z ∈ g.years then
    if k ∈ g.concKeys then g.conc k z else (g.prec.conc.lookup z).map (fun r => r k) else none), ?_,
    rowVal h0.prec.conc k y, rowVal h0.prec.conc k d0.nystart, rfl, rfl, ?_, ?_, ?_⟩
  · unfold reportForcing
    refine List.mem_append_right _ (List.mem_map.2 ⟨k, ?_, rfl⟩)
    rw [hgp, hcols]
    split
    · exact hkv
    · exact List.mem_append_left _ hkv
  · unfold reportConc
    refine List.mem_map.2 ⟨k, List.mem_filter.2 ⟨by rw [Y.keysG]; exact hkg, ?_⟩, rfl⟩
    rw [hgp]
    simp [hkv]
  · simp only
    rw [hgy, if_pos (by rw [mem_pyRange]; omega), if_neg hnc, hgp, hlook y hy1 hy2]
  · simp only
    rw [hgy, if_pos (by rw [mem_pyRange]; omega), if_neg hnc, hgp, hlook _ (le_refl _) (by omega)]
  · simp only
    rw [hgp, hval k y hy1 (by omega), if_neg hs3]
    have : gasOr i.gas k = x := by unfold gasOr; rw [hx]; rfl
    rw [this]

theorem loop_ozone {h : Handler ℝ κ} {yr : ℤ} {luc : ℝ} {i : ℕ}
    (hal : hasAlpha h "TROP_O3" = false) :
    ∀ (ks : List String) (a a' : Acc ℝ), ks.Nodup → "TROP_O3" ∈ ks →
      ks.foldlM (forcStep h yr luc i) a = .ok a' →
      ∃ (b : Acc ℝ) (v : ℝ), b.conc "CH4" = a'.conc "CH4" ∧ tropO3Conc h b yr = .ok v ∧
        "TROP_O3" ∈ h.concKeys ∧ a'.conc "TROP_O3" yr = some v
  | [], _, _, _, hm, _ => by simp at hm
  | s :: ks, a, a', hnd, hm, e => by
    obtain ⟨b, e1, e2⟩ := foldlM_cons_ok.1 e
    obtain ⟨hns, hnd'⟩ := List.nodup_cons.1 hnd
    by_cases hs : "TROP_O3" = s
    · subst hs
      obtain ⟨q, c, hq, -, -, -, -, hc⟩ := forcStep_other (by decide) e1
      unfold tracerForcing at hq
      rw [if_neg (by decide), if_neg (fun x => not_aerosol_strings.1 ((isAerosol_iff _).1 x)), hal,
        if_neg (by decide), if_pos rfl] at hq
      simp only [bind_eq_ok] at hq
      obtain ⟨⟨q', c'⟩, hq, g', hgt', e⟩ := hq
      rw [pure_ok, Except.ok.injEq, Prod.mk.injEq] at e
      obtain ⟨-, e4⟩ := e
      simp only at e4
      unfold tropO3Forcing at hq
      simp only [bind_eq_ok] at hq
      obtain ⟨y, hy, v, hv, u, hu, v0, hv0, p, hp, hq⟩ := hq
      have hcc : c = fun t y => if t = "TROP_O3" ∧ y = yr then some v else a.conc t y := by
        split at hq <;> rw [pure_ok, Except.ok.injEq, Prod.mk.injEq] at hq <;> rw [← e4, ← hq.2]
      refine ⟨a, v, ?_, hv, ?_, ?_⟩
      · rw [forcLoop_conc ks b a' e2 "CH4" (Or.inl (by decide)), hc, hcc]
        simp
      · unfold needKey at hu
        split at hu
        · assumption
        · cases hu
      · rw [forcLoop_conc ks b a' e2 _ (Or.inr hns), hc, hcc]
        simp
    · exact loop_ozone hal ks b a' hnd' ((List.mem_cons.1 hm).resolve_left hs) e2

/-- C59, tropospheric ozone: in every run (also a concentration-driven one) and every run year, the
reported concentration is the documented function of the reported methane concentration, the methane
prescribed for the reference year, and the emissions of NOx, CO and NMVOC. -/
theorem C59_run_ozone {cops : CarbonOps ℝ κ} {tops : ThermalOps ℝ τ} {d0 d d1 : Driver ℝ κ}
    {i : Inputs ℝ} {pamset carb : Option (Dict (PyVal ℝ))} {h0 g : Handler ℝ κ} {es : ℤ}
    {ps : List (RunPams ℝ)} {p : RunPams ℝ} {t : τ} (hgas : i.gas.keys.Nodup)
    (hTg : "Total_forcing" ∉ i.gas.keys)
    (ht : RunTables i.concIn i.emis (Dict.set (Factory.checkPamset pamset) "conc_run" (.bool i.concRun))
      d0.nystart es d0.nyend)
    (hc : construct cops i pamset carb = .ok h0) (hd0 : d0.source = .handler h0)
    (ha : After cops tops d0 ps d) (hr : run cops tops d p = .ok (d1, t)) (hg : d1.source = .handler g)
    {y : ℤ} (hy1 : d0.nystart ≤ y) (hy2 : y ≤ d0.nyend) {x : Gas ℝ} (hk : Yearly i.gas "TROP_O3")
    (hx : i.gas.get? "TROP_O3" = some x) (hx0 : x.alpha = 0) :
    ∃ emis ref m0, perturbedEmis i = .ok emis ∧ pamI g.pam "ref_yr" = .ok ref ∧
      i.concIn.at' "CH4" ref = .ok m0 ∧
      ∀ D luc, Observed g i emis luc d0.nystart y D →
        ∃ c ∈ reportConc g, c.1 = "TROP_O3" ∧ c.2 y = some (D.ozoneConc ref m0) := by
  obtain ⟨emis, a, b, c, fb, luc, sun, r, Y, hluc, -⟩ := run_year yearLaw_real ht hc hd0 ha hr hg hy1 hy2
  obtain ⟨emis', cl, br, he, ht2, hpre, hcg, hci, hce, hcp, hcy⟩ := constructed hc ht
  obtain ⟨hvg, -, hsp⟩ := mem_spicy hpre
  have hkg : "TROP_O3" ∈ i.gas.keys := (get?_isSome_iff _ _).1 ⟨x, hx⟩
  have hcc : ∀ t ∈ g.concKeys, t ∈ i.gas.keys := by
    intro t htm
    obtain ⟨h, hd, -, kept, -⟩ := after_spec yearLaw_real hd0 ha (fun _ => True) trivial
      (fun _ _ _ _ _ _ _ => trivial) (fun _ _ _ _ _ _ => trivial)
    obtain ⟨g0, g', hre, hg', hs, -, -⟩ := run_handler_spec hd hr
    rw [hg] at hg'
    cases hg'
    obtain ⟨pam, c, -, -, rfl⟩ := reset_spec hre
    rw [hs.concKeys] at htm
    simp only [concKeysOf] at htm
    rw [kept.prec, hsp] at htm
    exact (List.mem_filter.1 (List.mem_filter.1 htm).1).1
  have hfk : b.forcKeys = h0.prec.spicy.filter (fun t => t ≠ "CO2.1") ++ ["Total_forcing"] := by
    rw [Y.sameB.forcKeys, Y.forcKeys]
    unfold forcKeysOf
    rw [if_neg]
    intro h
    have := (List.mem_filter.1 h).1
    rw [hsp] at this
    exact hTg (List.mem_filter.1 this).1
  have hspn : h0.prec.spicy.Nodup := by rw [hsp]; exact hgas.filter _
  have hfn : b.forcKeys.Nodup := by
    rw [hfk, List.nodup_append]
    refine ⟨hspn.filter _, by simp, ?_⟩
    intro x hx z hz hab
    simp only [List.mem_cons, List.not_mem_nil, or_false] at hz
    subst hab; subst hz
    have := (List.mem_filter.1 hx).1
    rw [hsp] at this
    exact hTg (List.mem_filter.1 this).1
  have hnv : "TROP_O3" ∉ h0.prec.gases := by
    obtain ⟨x1, hx1, hu, -, -⟩ := hk
    rw [mem_vanilla hgas hvg]
    rintro ⟨x', hx', h1, h2, h3, h4⟩
    rw [hx1, Option.some.injEq] at hx'
    subst hx'
    exact hu.elim h1 (fun h => h.elim h2 (fun h => h.elim h3 h4))
  have hkf : "TROP_O3" ∈ b.forcKeys := by
    rw [hfk]
    refine List.mem_append_left _ (List.mem_filter.2 ⟨?_, by decide⟩)
    rw [hsp]
    exact List.mem_filter.2 ⟨hkg, by simp [hnv]⟩
  have hal : hasAlpha b "TROP_O3" = false := by
    unfold hasAlpha
    have hgg := Y.gas "TROP_O3"
    rw [← Y.sameB.gas_canon, hx] at hgg
    cases hb : b.gas.get? "TROP_O3" with
    | none => rfl
    | some xb =>
      rw [hb, Option.map_some, Option.map_some, Option.some.injEq] at hgg
      unfold canon at hgg
      rw [if_neg (by decide), if_neg (by decide)] at hgg
      subst hgg
      simp only
      rw [Bool.eq_false_iff]
      intro hn
      exact (alpha_ne _).1 hn hx0
  obtain ⟨y0', a0, a1, v, a3, e0, hle, hlt, h0', hi, h1, hv, h3, hee⟩ := conc2forc_inv Y.forc
  obtain ⟨acc, o, hch4, ho, hmem, hval⟩ := loop_ozone hal _ _ _ hfn hkf h1
  have hpc : c.conc = a1.conc := by
    unfold finishForc at hee
    simp only [Prod.mk.injEq] at hee
    rw [hee.2]
    simp only
    have : a3.conc = (addPert b y0' y { a1 with tot := a1.tot + v, nh := a1.nh + v, sh := a1.sh + v }).conc := by
      unfold applyJustOne at h3
      split at h3
      · rw [Except.ok.injEq] at h3; subst h3; rfl
      · rw [bind_eq_ok] at h3
        obtain ⟨k, _, h3⟩ := h3
        rw [pure_ok, Except.ok.injEq] at h3
        subst h3
        rfl
    rw [this]
    unfold addPert
    split <;> rfl
  unfold tropO3Conc at ho
  simp only [bind_eq_ok] at ho
  obtain ⟨ref, href, m, hm, mref, hmref, nox, hnox, nox0, hnox0, co, hco, co0, hco0, voc, hvoc, voc0, hvoc0, ho⟩ := ho
  rw [pure_ok, Except.ok.injEq] at ho
  have hbe : b.emis = emis := by rw [Y.sameB.emis, Y.emis]
  have hbc : b.concIn = i.concIn := by rw [Y.sameB.concIn, Y.concIn]
  rw [hbe] at hnox hnox0 hco hco0 hvoc hvoc0
  rw [hbc] at hmref
  refine ⟨emis, ref, mref, Y.emisE, ?_, hmref, ?_⟩
  · rw [Y.sameG.pam, Y.sameC.pam]; exact href
  intro D luc' hD
  have hgO : "TROP_O3" ∈ g.concKeys := by rw [Y.sameG.concKeys, Y.sameC.concKeys]; exact hmem
  have hgy : y ∈ g.years := by
    rw [Y.sameG.years, Y.sameC.years, Y.sameB.years, Y.years, mem_pyRange]; omega
  refine ⟨_, reportConc_conc hgO (by rw [Y.keysG]; exact hkg), rfl, ?_⟩
  simp only
  rw [if_pos hgy, Y.concZ _ _ (le_refl _), hpc, hval, ← ho]
  unfold accConc Handler.concAt at hm
  simp only at hm
  split at hm
  swap
  · cases hm
  rename_i hmk
  split at hm
  swap
  · cases hm
  rename_i w hw
  rw [Except.ok.injEq] at hm
  subst hm
  have hmD : D.conc "CH4" y = w := by
    have hgk : "CH4" ∈ g.concKeys := by rw [Y.sameG.concKeys, Y.sameC.concKeys]; exact hmk
    refine hD.conc _ (reportConc_conc hgk (by rw [Y.keysG]; exact hcc _ hgk)) y w ?_
    simp only
    rw [if_pos hgy, Y.concZ _ _ (le_refl _), hpc, ← hch4, hw]
  unfold ForcingData.ozoneConc
  rw [hD.year, hmD, hD.emis _ _ _ hnox, hD.emis _ _ _ hnox0, hD.emis _ _ _ hco, hD.emis _ _ _ hco0,
    hD.emis _ _ _ hvoc, hD.emis _ _ _ hvoc0]
  simp only [mlog]
  norm_num

end

/-- The small run over the reals meets the hypotheses of `C59_run`, driven either way: the reported CO2
forcing of 2003 is the documented one. -/
example (b : Bool) : ∃ h d1 g, construct Exec.plainCarbon (Exec.plainInputs b) Exec.plainPam none = .ok h ∧
    run Exec.plainCarbon Exec.plainThermal (Exec.plainDriver h) ⟨none, none, none⟩ = .ok (d1, ()) ∧
    d1.source = .handler g ∧ ∃ D emis, Observed g (Exec.plainInputs b) emis 3 2000 2003 D ∧
      ∃ c ∈ reportForcing g 2000, c.1 = "CO2" ∧ c.2 2003 = some (D.forcing "CO2") := by
  obtain ⟨h, d1, g, ht, hc, hr, hg, hk⟩ := plain_case b
  obtain ⟨emis, luc, -, hl, hD⟩ := C59_run (d0 := Exec.plainDriver h) (plain_keys b).1 (plain_keys b).2 ht hc rfl
    After.fresh hr hg (y := 2003) (by simp [Exec.plainDriver]) (by simp [Exec.plainDriver])
  have hl3 : luc = 3 := by
    simpa [Exec.plainDriver] using hl.symm
  subst hl3
  obtain ⟨D, hD0⟩ := observed_exists g (Exec.plainInputs b) emis 3 2000 2003
    (by rw [hk]; exact (plain_keys b).1)
  refine ⟨h, d1, g, hc, hr, hg, D, emis, hD0, ?_⟩
  obtain ⟨c, hcm, hc1, hc2⟩ := hD D hD0 "CO2" ⟨_, rfl, by simp, by decide, by decide⟩
  refine ⟨c, hcm, by simpa [columnName] using hc1, ?_⟩
  rw [hc2]
  simp [pertOf, Exec.plainInputs]

/-- And those of `C59_run_ahead`, for CFC-11. -/
example (b : Bool) : ∃ h d1 g, construct Exec.plainCarbon (Exec.plainInputs b) Exec.plainPam none = .ok h ∧
    run Exec.plainCarbon Exec.plainThermal (Exec.plainDriver h) ⟨none, none, none⟩ = .ok (d1, ()) ∧
    d1.source = .handler g ∧ ∃ c ∈ reportForcing g 2000, ∃ conc ∈ reportConc g, ∃ v v0, c.1 = "CFC-11" ∧
      conc.1 = "CFC-11" ∧ conc.2 2003 = some v ∧ conc.2 2000 = some v0 ∧
      c.2 2003 = some (1 * (1 / 4) * (v - v0)) := by
  obtain ⟨h, d1, g, ht, hc, hr, hg, hk⟩ := plain_case b
  have hx : (Exec.plainInputs b).gas.get? "CFC-11" = some ⟨"ppt", 1/4, 20, 45, 0, 0, 0, 1⟩ := rfl
  have := C59_run_ahead (d0 := Exec.plainDriver h) (plain_keys b).1 rfl ht hc rfl
    After.fresh hr hg (y := 2003) (by simp [Exec.plainDriver]) (by simp [Exec.plainDriver])
    ⟨_, hx, by simp, by decide, by decide, by decide⟩ hx (by decide)
  exact ⟨h, d1, g, hc, hr, hg, this⟩

end Verif.Props
