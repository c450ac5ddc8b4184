import Verif.Props.C03_C04
import Verif.Exec.RealRun

/-!
# C12 — prescribed concentrations are reproduced

For every number type, instance history and carbon cycle. Tropospheric ozone is left out: its
concentration is computed from methane and emissions in every year (C18).
-/

namespace Verif.Props
open Verif.Py Verif.Py.Dict Verif.Model Verif.Model.Handler Verif.Model.Driver Verif.Spec

section
variable {F κ τ : Type} [Add F] [Sub F] [Mul F] [Div F] [Neg F] [OfScientific F] [LT F] [DecidableLT F]
  [MathFn F]

/-! ## Helpers -/

/-- The forcing calculation writes no concentration but that of tropospheric ozone. -/
theorem conc2forc_conc {h h' : Handler F κ} {yr : ℤ} {luc sun : F} {r : ForcResult F}
    (e : conc2forc h yr luc sun = .ok (r, h')) {t : String} (ht : t ≠ "TROP_O3") (y : ℤ) :
    h'.conc t y = h.conc t y := by
  unfold conc2forc at e
  simp only [bind_eq_ok] at e
  obtain ⟨b, hb, y0, h0, i, hi, c, hc, d, hd, f, hf, e⟩ := e
  have f1 : b.conc t y = h.conc t y := by
    unfold threeMain at hb
    simp only [bind_eq_ok] at hb
    obtain ⟨_, _, _, _, _, _, _, _, _, _, _, _, _, _, _, _, _, _, _, _, i', hi', -, -, -, -, -, -, hb⟩ := hb
    rw [pure_ok, Except.ok.injEq] at hb
    subst hb
    rfl
  have f2 : c.conc t y = h.conc t y := by
    refine foldlM_inv (fun b : Acc F => b.conc t y = h.conc t y) ?_ _ b _ f1 hc
    intro b s b' hfb hx
    unfold forcStep at hx
    split at hx
    · rw [Except.ok.injEq] at hx; subst hx; exact hfb
    · rw [bind_eq_ok] at hx
      obtain ⟨q, hq, hx⟩ := hx
      rw [pure_ok, Except.ok.injEq] at hx
      subst hx
      simp only
      rw [← hfb]
      unfold tracerForcing at hq
      by_cases c1 : s = "LANDUSE"
      · rw [if_pos c1, Except.ok.injEq] at hq; subst hq; rfl
      rw [if_neg c1] at hq
      by_cases c2 : isAerosol s = true
      · rw [if_pos c2, bind_eq_ok] at hq
        obtain ⟨q, -, hq⟩ := hq
        rw [pure_ok, Except.ok.injEq] at hq; subst hq; rfl
      rw [if_neg c2] at hq
      by_cases c3 : hasAlpha h s = true
      · rw [if_pos c3] at hq
        simp only [bind_eq_ok] at hq
        obtain ⟨y0, -, c, -, c0, -, g, -, hq⟩ := hq
        rw [pure_ok, Except.ok.injEq] at hq; subst hq; rfl
      rw [if_neg c3] at hq
      by_cases c4 : s = "TROP_O3"
      · rw [if_pos c4] at hq
        simp only [bind_eq_ok] at hq
        obtain ⟨q, hq', g, -, hq⟩ := hq
        rw [pure_ok, Except.ok.injEq] at hq
        subst hq
        unfold tropO3Forcing at hq'
        simp only [bind_eq_ok] at hq'
        obtain ⟨y0, h0, v, hv, -, -, v0, hv0, p, hp, hq'⟩ := hq'
        split at hq' <;> rw [pure_ok, Except.ok.injEq] at hq' <;> subst hq' <;> simp [ht]
      rw [if_neg c4] at hq
      by_cases c5 : s = "STRAT_H2O"
      · rw [if_pos c5] at hq
        simp only [bind_eq_ok] at hq
        obtain ⟨q, -, g, -, hq⟩ := hq
        rw [pure_ok, Except.ok.injEq] at hq; subst hq; rfl
      rw [if_neg c5, Except.ok.injEq] at hq; subst hq; rfl
  have f3 : d.conc = c.conc := by
    unfold addVanilla at hd
    rw [bind_eq_ok] at hd
    obtain ⟨v, -, hd⟩ := hd
    rw [pure_ok, Except.ok.injEq] at hd
    subst hd; rfl
  have f4 : (addPert h y0 yr d).conc = d.conc := by
    unfold addPert; split <;> rfl
  have f5 : f.conc = (addPert h y0 yr d).conc := by
    unfold applyJustOne at hf
    split at hf
    · rw [Except.ok.injEq] at hf; subst hf; rfl
    · rw [bind_eq_ok] at hf
      obtain ⟨k, -, hf⟩ := hf
      rw [pure_ok, Except.ok.injEq] at hf
      subst hf; rfl
  rw [pure_ok, Except.ok.injEq] at e
  have e2 : h' = (finishForc h i sun f).2 := by rw [e]
  rw [e2]
  simp only [finishForc]
  rw [f5, f4, f3, f2]

/-- What a new handler keeps of its inputs. -/
theorem constructed {cops : CarbonOps F κ} {i : Inputs F} {pamset carb : Option (Dict (PyVal F))}
    {h : Handler F κ} {ns es ne : ℤ} (e : construct cops i pamset carb = .ok h)
    (ht : RunTables i.concIn i.emis (Dict.set (Factory.checkPamset pamset) "conc_run" (.bool i.concRun)) ns es ne) :
    ∃ emis cl br, perturbedEmis i = .ok emis ∧
      RunTables i.concIn emis (Dict.set (Factory.checkPamset pamset) "conc_run" (.bool i.concRun)) ns es ne ∧
      precalculate i.gas i.concIn emis (Dict.set (Factory.checkPamset pamset) "conc_run" (.bool i.concRun))
        i.pertForc (pyRange ns (ne + 1)) cl br = .ok h.prec ∧
      h.gas = i.gas ∧ h.concIn = i.concIn ∧ h.emis = emis ∧ h.pert = i.pertForc ∧
      h.years = pyRange ns (ne + 1) := by
  obtain ⟨ns1, ne1, emis, clbr, prec, pre, k0, k, h1, h2, h3, h4, h5, h6, h7, h8, rfl⟩ := construct_spec e
  have hset : ∀ k, k ≠ "conc_run" → pamI (Dict.set (Factory.checkPamset pamset) "conc_run"
      (.bool i.concRun)) k = pamI (Factory.checkPamset pamset) k := by
    intro k hk
    unfold pamI Dict.getE
    rw [Dict.get?_set, if_neg (fun e => hk e.symm)]
  have hns := ht.nystart
  have hne := ht.nyend
  rw [hset _ (by decide)] at hns hne
  rw [h1, Except.ok.injEq] at hns
  rw [h2, Except.ok.injEq] at hne
  subst hns hne
  exact ⟨emis, _, _, h3, ⟨ht.nystart, ht.nyend, ht.emstart, ht.concIdx,
    by rw [(perturbedEmis_cell h3).2.1]; exact ht.emisIdx, ht.nonempty, ht.order⟩, h5, rfl, rfl, rfl, rfl, rfl⟩

omit [Add F] [Sub F] [Mul F] [Div F] [Neg F] [LT F] [DecidableLT F] in
theorem concRun_pam (pam : Dict (PyVal F)) (b : Bool) : pamB (Dict.set pam "conc_run" (.bool b)) "conc_run" = .ok b := by
  unfold pamB Dict.getE
  rw [Dict.get?_set, if_pos rfl]
  rfl

theorem mem_spicy {gas : Dict (Gas F)} {concIn emis : Frame F} {pam : Dict (PyVal F)}
    {pert : Option (List (PertRow F))} {years : List ℤ} {cl br : Dict Int} {p : Precalc F}
    (h : precalculate gas concIn emis pam pert years cl br = .ok p) :
    vanillaGases gas = .ok p.gases ∧ precalcConc gas concIn emis pam p.gases = .ok p.conc ∧
      p.spicy = gas.keys.filter (fun g => g ∉ p.gases ∧ g ≠ "STRAT_O3") := by
  unfold precalculate at h
  simp only [bind_eq_ok] at h
  obtain ⟨gases, hg, conc, hconc, erf0, herf, so3, hso3, strat, hstrat, rows, hadd, erf, hpert, hp⟩ := h
  rw [pure_ok, Except.ok.injEq] at hp
  subst hp
  refine ⟨hg, hconc, ?_⟩
  simp only
  apply List.filter_congr
  intro a _
  by_cases hs : "STRAT_O3" ∈ gases
  · rw [if_pos hs]
    by_cases ha : a = "STRAT_O3"
    · subst ha; simp [hs]
    · simp [ha]
  · rw [if_neg hs]; simp

theorem conc_run_handler (law : YearLaw F) {cops : CarbonOps F κ} {h0 h g : Handler F κ} {J : Prop} (hk : Kept J h0 h)
    {p q : Option (Dict (PyVal F))} {b : Bool} (hb : h0.pam.get? "conc_run" = some (.bool b))
    (e : resetWithNewPams cops h p q = .ok g) : pamB g.pam "conc_run" = .ok b := by
  have hk' : Kept False h0 h := { hk with just := fun h => h.elim }
  have hcr := (hk'.reset law e (fun h => h.elim)).pam "conc_run" concRun_notin (by decide)
  rw [hb] at hcr
  unfold pamB Dict.getE
  rw [hcr]
  rfl

/-- The run of an instance with a history, year by year. -/
theorem conc_reported (law : YearLaw F) {cops : CarbonOps F κ} {tops : ThermalOps F τ} {d0 d d1 : Driver F κ}
    {i : Inputs F} {pamset carb : Option (Dict (PyVal F))} {h0 g : Handler F κ} {es : ℤ}
    {ps : List (RunPams F)} {p : RunPams F} {t : τ}
    (ht : RunTables i.concIn i.emis (Dict.set (Factory.checkPamset pamset) "conc_run" (.bool i.concRun))
      d0.nystart es d0.nyend)
    (hc : construct cops i pamset carb = .ok h0) (hd0 : d0.source = .handler h0)
    (ha : After cops tops d0 ps d) (hr : run cops tops d p = .ok (d1, t)) (hg : d1.source = .handler g)
    {z : ℤ} (hz1 : d0.nystart ≤ z) (hz2 : z ≤ d0.nyend)
    (hpres : i.concRun = true ∨ z < es)
    {c : String × (ℤ → Option F)} (hcm : c ∈ reportConc g) (hco2 : i.concRun = true ∨ c.1 ≠ "CO2")
    (hO3 : c.1 ≠ "TROP_O3") :
    c.2 z = some (if c.1 ∈ i.concIn.cols then i.concIn.cell c.1 z else 0.0) := by
  have hle := ht.nonempty
  obtain ⟨emis, cl, br, he, ht2, hpre, hcg, hci, -, -, hcy⟩ := constructed hc ht
  obtain ⟨h, hd, -, hk, hsame⟩ := after_spec law hd0 ha (fun _ => True) trivial
    (fun _ _ _ _ _ _ _ => trivial) (fun _ _ _ _ _ _ => trivial)
  have hns : d.nystart = d0.nystart := by rw [hsame]
  have hne : d.nyend = d0.nyend := by rw [hsame]
  obtain ⟨tr, htr⟩ := run_trace hr
  obtain ⟨H, hreset, hsrc, hyr⟩ := handler_trace htr hd
  have hk' : Kept False h0 h := { hk with just := fun h => h.elim }
  have kept := hk'.reset law hreset (fun h => h.elim)
  obtain ⟨s0, -, -⟩ := handler_frozen hyr (a := d.nystart) (b := z) (le_refl _) (by omega) (by omega)
  obtain ⟨h1, luc, sun, r, values, vn, vs, hy⟩ := hyr z (by omega) (by omega)
  obtain ⟨frz, frzc, -⟩ := handler_frozen hyr (a := z + 1) (b := d.nyend + 1) (by omega) (by omega) (le_refl _)
  have hgH : g = H (d.nyend + 1) := by
    have e1 := hsrc (d.nyend + 1) (by omega) (le_refl _)
    have e2 : d1.source = (tr (d.nyend + 1)).source := by rw [htr.last.1]
    rw [hg, e1] at e2
    exact Source.handler.inj e2
  obtain ⟨s1, -, -⟩ := emi2conc_frame hy.emi
  obtain ⟨i0, -, s2, -, -, -, -⟩ := conc2forc_frame hy.forc
  have sall : Same (H d.nystart) g := by rw [hgH]; exact ((s0.trans s1).trans s2).trans frz
  unfold reportConc at hcm
  obtain ⟨k, hkm, rfl⟩ := List.mem_map.1 hcm
  simp only at hco2 hO3 ⊢
  have hyrs : z ∈ g.years := by
    rw [sall.years, kept.years, hcy, mem_pyRange]; omega
  rw [if_pos hyrs]
  obtain ⟨hvg, hpc, hsp⟩ := mem_spicy hpre
  by_cases hkc : k ∈ g.concKeys
  · rw [if_pos hkc, hgH, frzc k z (by omega), conc2forc_conc hy.forc hO3]
    have hkz : k ∈ (H z).concKeys := by
      rw [s0.concKeys, ← sall.concKeys]; exact hkc
    have hcz : (H z).concIn = i.concIn := by rw [s0.concIn, kept.concIn, hci]
    have hrunz : pamB (H z).pam "conc_run" = .ok i.concRun := by
      rw [s0.pam]; exact conc_run_handler law hk (concRun_constructed hc) hreset
    obtain ⟨b, hb, ⟨_, e⟩ | ⟨hb0, es', hes, ⟨_, e⟩ | ⟨hb1, e⟩⟩⟩ := emi2conc_cases hy.emi
    · rw [(fillOneRow_spec e).2.2.2.2.1, hcz, if_pos ⟨rfl, hkz, by simp⟩]
    · have hco : k ≠ "CO2" := by
        rw [hrunz, Except.ok.injEq] at hb
        rcases hco2 with h | h
        · rw [h, hb0] at hb; cases hb
        · exact h
      rw [(beforeEmstart_spec e).2.2.2.2.2.1 k z (Or.inl hco), hcz, if_pos ⟨rfl, hkz⟩]
    · exfalso
      rw [hrunz, Except.ok.injEq] at hb
      rcases hpres with h | h
      · rw [h, hb0] at hb; cases hb
      · rw [hb1] at hes
        rw [s0.pam, kept.before z] at hes
        have hem := ht.emstart
        obtain ⟨_, _, _, _, _, _, _, _, _, _, _, _, _, _, _, _, rfl⟩ := construct_spec hc
        simp only at hes
        unfold beforeStart Dict.getE at hes
        rw [avoid_get? _ _ _ (by decide)] at hes
        unfold pamI Dict.getE at hem
        cases hv : Dict.get? (Dict.set (Factory.checkPamset pamset) "conc_run" (.bool i.concRun)) "emstart" with
        | none => rw [hv] at hem; cases hem
        | some v =>
          rw [hv] at hem hes
          simp only [bind_ok] at hem hes
          unfold yearLt at hes
          cases hvi : v.toI with
          | none => rw [hvi] at hem; cases hem
          | some x =>
            rw [hvi] at hem hes
            simp only [Except.ok.injEq] at hem hes
            subst hem
            simp [h] at hes
  · rw [if_neg hkc]
    have hkv : k ∈ h0.prec.gases := by
      obtain ⟨-, hor⟩ := List.mem_filter.1 hkm
      simp only [decide_eq_true_eq] at hor
      rcases hor with h | h
      · exact absurd h hkc
      · rwa [sall.prec, kept.prec] at h
    obtain ⟨hrows, hcols, -⟩ := precalcConc_rows hpc (concRun_pam _ _) ht2
    have hser : preSeries i.gas i.concIn emis i.concRun es d0.nyend k z = i.concIn.cell k z := by
      unfold preSeries
      rcases hpres with h | h
      · rw [if_pos (Or.inl h)]
      · split
        · rfl
        · unfold series; rw [if_pos h]
    rw [sall.prec, kept.prec, hrows, lookup_map_pyRange, if_pos (by omega), Option.map_some,
      if_pos (hcols k hkv)]
    exact congrArg some hser

/-! ## C12 -/

/-- C12, concentration-driven: in every run, after any history, the reported concentration of every gas
with a prescribed series equals the prescribed value in every run year. -/
theorem C12_conc_run (law : YearLaw F) {cops : CarbonOps F κ} {tops : ThermalOps F τ} {d0 d d1 : Driver F κ}
    {i : Inputs F} {pamset carb : Option (Dict (PyVal F))} {h0 g : Handler F κ} {es : ℤ}
    {ps : List (RunPams F)} {p : RunPams F} {t : τ} (hconc : i.concRun = true)
    (ht : RunTables i.concIn i.emis (Dict.set (Factory.checkPamset pamset) "conc_run" (.bool i.concRun))
      d0.nystart es d0.nyend)
    (hc : construct cops i pamset carb = .ok h0) (hd0 : d0.source = .handler h0)
    (ha : After cops tops d0 ps d) (hr : run cops tops d p = .ok (d1, t)) (hg : d1.source = .handler g) :
    ∀ c ∈ reportConc g, c.1 ≠ "TROP_O3" → c.1 ∈ i.concIn.cols →
      ∀ z, d0.nystart ≤ z → z ≤ d0.nyend → c.2 z = some (i.concIn.cell c.1 z) := by
  intro c hcm hO3 hcol z h1 h2
  rw [conc_reported law ht hc hd0 ha hr hg h1 h2 (Or.inl hconc) hcm (Or.inl hconc) hO3, if_pos hcol]

/-- C12, emission-driven: before `emstart` the reported concentration of every gas but CO2 with a
prescribed series equals the prescribed value. -/
theorem C12_before_emstart (law : YearLaw F) {cops : CarbonOps F κ} {tops : ThermalOps F τ} {d0 d d1 : Driver F κ}
    {i : Inputs F} {pamset carb : Option (Dict (PyVal F))} {h0 g : Handler F κ} {es : ℤ}
    {ps : List (RunPams F)} {p : RunPams F} {t : τ}
    (ht : RunTables i.concIn i.emis (Dict.set (Factory.checkPamset pamset) "conc_run" (.bool i.concRun))
      d0.nystart es d0.nyend)
    (hc : construct cops i pamset carb = .ok h0) (hd0 : d0.source = .handler h0)
    (ha : After cops tops d0 ps d) (hr : run cops tops d p = .ok (d1, t)) (hg : d1.source = .handler g) :
    ∀ c ∈ reportConc g, c.1 ≠ "TROP_O3" → c.1 ≠ "CO2" → c.1 ∈ i.concIn.cols →
      ∀ z, d0.nystart ≤ z → z ≤ d0.nyend → z < es → c.2 z = some (i.concIn.cell c.1 z) := by
  intro c hcm hO3 hco2 hcol z h1 h2 h3
  rw [conc_reported law ht hc hd0 ha hr hg h1 h2 (Or.inr h3) hcm (Or.inr hco2) hO3, if_pos hcol]

/-- C12: which concentrations are reported: those of the gases with a concentration unit, and
tropospheric ozone. -/
theorem C12_reported {cops : CarbonOps F κ} {tops : ThermalOps F τ} {d0 d1 : Driver F κ}
    {i : Inputs F} {pamset carb : Option (Dict (PyVal F))} {h0 g : Handler F κ}
    {p : RunPams F} {t : τ} (hgas : i.gas.keys.Nodup)
    (hc : construct cops i pamset carb = .ok h0) (hd0 : d0.source = .handler h0)
    (hr : run cops tops d0 p = .ok (d1, t)) (hg : d1.source = .handler g) (k : String) :
    k ∈ (reportConc g).map Prod.fst ↔
      ∃ x, i.gas.get? k = some x ∧ (x.concUnit ≠ "-" ∨ k = "TROP_O3") := by
  obtain ⟨h1, g', hreset, e1, s, hkeys, -, -⟩ := run_handler_spec hd0 hr
  rw [hg] at e1
  cases e1
  obtain ⟨ns1, ne1, emis, clbr, prec, pre, k0, kk, _, _, _, _, hpre, _, _, _, rfl⟩ := construct_spec hc
  obtain ⟨hvg, -, hsp⟩ := mem_spicy hpre
  obtain ⟨pam, c, -, -, rfl⟩ := reset_spec hreset
  have hk : g.gas.keys = i.gas.keys := hkeys
  have hck : g.concKeys = concKeysOf i.gas prec.spicy := s.concKeys
  have hpr : g.prec = prec := s.prec
  unfold reportConc
  rw [List.map_map, List.mem_map]
  simp only [Function.comp, List.mem_filter, exists_eq_right, decide_eq_true_eq]
  rw [hk, hck, hpr]
  have hmv : k ∈ prec.gases ↔ ∃ x, i.gas.get? k = some x ∧ x.concUnit ≠ "-" ∧ k ∉ ["CO2", "CH4", "N2O"] := by
    unfold vanillaGases at hvg
    split at hvg
    · rw [Except.ok.injEq] at hvg
      rw [← hvg, List.mem_map]
      constructor
      · rintro ⟨q, hq, rfl⟩
        obtain ⟨hq2, hq3⟩ := List.mem_filter.1 hq
        simp only [decide_eq_true_eq] at hq3
        exact ⟨q.2, Dict.get?_of_mem hgas hq2, hq3⟩
      · rintro ⟨x, hx, h1⟩
        exact ⟨(k, x), List.mem_filter.2 ⟨Dict.mem_of_get? hx, by simpa using h1⟩, rfl⟩
    · cases hvg
  have hmc : k ∈ concKeysOf i.gas prec.spicy ↔ k ∈ i.gas.keys ∧ (k ∉ prec.gases ∧ k ≠ "STRAT_O3") ∧
      k ≠ "CO2.1" ∧ (k = "TROP_O3" ∨ (gasOr i.gas k).concUnit ≠ "-") := by
    unfold concKeysOf
    rw [List.mem_filter, hsp, List.mem_filter]
    simp only [decide_eq_true_eq, and_assoc]
  constructor
  · rintro ⟨hm, h | h⟩
    · obtain ⟨x, hx⟩ := (Dict.get?_isSome_iff _ _).2 hm
      refine ⟨x, hx, ?_⟩
      rcases (hmc.1 h).2.2.2 with h2 | h2
      · exact Or.inr h2
      · unfold gasOr at h2
        rw [hx] at h2
        exact Or.inl h2
    · obtain ⟨x, hx, h2, -⟩ := hmv.1 h
      exact ⟨x, hx, Or.inl h2⟩
  · rintro ⟨x, hx, h⟩
    have hm := (Dict.get?_isSome_iff _ _).1 ⟨x, hx⟩
    refine ⟨hm, ?_⟩
    by_cases hv : k ∈ prec.gases
    · exact Or.inr hv
    · left
      rw [hmc]
      have hgo : gasOr i.gas k = x := by unfold gasOr; rw [hx]; rfl
      rw [hgo]
      have h3 : x.concUnit ≠ "-" → k ∈ ["CO2", "CH4", "N2O"] := by
        intro hu
        by_contra hn
        exact hv (hmv.2 ⟨x, hx, hu, hn⟩)
      rcases h with h | h
      · have := h3 h
        refine ⟨hm, ⟨hv, ?_⟩, ?_, Or.inr h⟩
        · rintro rfl; revert this; decide
        · rintro rfl; revert this; decide
      · exact ⟨hm, ⟨hv, by rw [h]; decide⟩, by rw [h]; decide, Or.inl h⟩

end

/-- Non-vacuity: complete runs over the reals, 2000-2003 with emissions from 2002, meet every
hypothesis; methane is reported in both. -/
example (b : Bool) : ∃ h d1 g, construct Exec.plainCarbon (Exec.plainInputs b) Exec.plainPam none = .ok h ∧
    run Exec.plainCarbon Exec.plainThermal (Exec.plainDriver h) ⟨none, none, none⟩ = .ok (d1, ()) ∧
    d1.source = .handler g ∧ "CH4" ∈ (reportConc g).map Prod.fst ∧ "CFC-11" ∈ (reportConc g).map Prod.fst ∧
    RunTables (Exec.plainInputs b).concIn (Exec.plainInputs b).emis
      (Dict.set (Factory.checkPamset Exec.plainPam) "conc_run" (.bool (Exec.plainInputs b).concRun)) 2000 2002 2003 := by
  obtain ⟨h, d1, hc, hr⟩ := Exec.plain_runs b
  obtain ⟨g0, g, -, hg, -⟩ := run_handler_spec rfl hr
  have hn : (Exec.plainInputs b).gas.keys.Nodup := by
    simp [Exec.plainInputs, Exec.plainGas, Dict.keys]
  refine ⟨h, d1, g, hc, hr, hg, ?_, ?_, ?_⟩
  · exact (C12_reported hn hc rfl hr hg "CH4").2 ⟨_, rfl, Or.inl (by simp)⟩
  · exact (C12_reported hn hc rfl hr hg "CFC-11").2 ⟨_, rfl, Or.inl (by simp)⟩
  · exact ⟨rfl, rfl, rfl, ⟨2000, 2006, rfl, by omega, by omega⟩, ⟨2000, 2006, rfl, by omega, by omega⟩, by omega,
      fun _ => by omega⟩

end Verif.Props
