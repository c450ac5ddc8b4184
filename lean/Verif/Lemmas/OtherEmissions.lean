import Verif.Props.C97
import Verif.Props.C15
import Verif.Props.C77
import Verif.Props.C98

/-!
# Lemmas for C99: what two emission-driven runs share whose emissions differ in some species only
-/

namespace Verif.Props
open Verif.Py Verif.Py.Dict Verif.Model Verif.Model.Handler Verif.Model.Driver Verif.Spec

section
variable {κ τ κ' τ' : Type} {cops : CarbonOps ℝ κ} {tops : ThermalOps ℝ τ} {cops' : CarbonOps ℝ κ'} {tops' : ThermalOps ℝ τ'}
  {i i' : Inputs ℝ} {pamset : Option (Dict (PyVal ℝ))} {ps : List (RunPams ℝ)} {p : RunPams ℝ}
  {luc luc' : List ℝ} {ns es ne : ℤ} {g : Handler ℝ κ} {g' : Handler ℝ κ'} {K : List String}

/-- The table computed ahead, in a run. -/
theorem ran_prec (R : Ran cops tops i pamset ps p luc ns es ne g) : ∃ emis clbr, perturbedEmis i = .ok emis ∧
    PubUtils.makeClAndBr i.gas.keys = .ok clbr ∧
    RunTables i.concIn emis (Dict.set (Factory.checkPamset pamset) "conc_run" (.bool i.concRun)) ns es ne ∧
    precalculate i.gas i.concIn emis (Dict.set (Factory.checkPamset pamset) "conc_run" (.bool i.concRun))
      i.pertForc (pyRange ns (ne + 1)) clbr.1 clbr.2 = .ok g.prec ∧
    g.forcKeys = forcKeysOf g.prec.spicy ∧ g.years = pyRange ns (ne + 1) := by
  obtain ⟨hg, he, ht, hp, carb, h0, d0, d, d1, t, hc, hd0, -, rfl, rfl, ha, hr, hs⟩ := R
  obtain ⟨emis, a, b, c, fb, luc, sun, r, Y, hluc, -⟩ := run_year yearLaw_real ht hc hd0 ha hr hs le_rfl ht.nonempty
  obtain ⟨emis', cl, br, he', ht2, -, -, -, -, -, hcy⟩ := constructed hc ht
  obtain ⟨ns1, ne1, emis2, clbr, prec, pre, k0, k, h1, h2, h3, h4, h5, h6, h7, h8, rfl⟩ := construct_spec hc
  have S := (Y.sameB.trans Y.sameC).trans Y.sameG
  have hgp : g.prec = prec := by rw [S.prec, Y.prec]
  rw [he', Except.ok.injEq] at h3
  subst h3
  refine ⟨emis', clbr, he', h4, ht2, ?_, ?_, by rw [S.years, Y.years]⟩
  · rw [hgp]
    have : pyRange ns1 (ne1 + 1) = pyRange d0.nystart (d0.nyend + 1) := hcy
    rw [← this]
    exact h5
  · rw [S.forcKeys, Y.forcKeys, hgp]

/-- The concentrations and forcings computed ahead react to the emissions of the gases computed ahead only. -/
theorem ahead_same (R : Ran cops tops i pamset ps p luc ns es ne g) (R' : Ran cops' tops' i' pamset ps p luc' ns es ne g')
    (ho : OnlyEmissionsOf K i i') (hpert : i.pertForc = none) (hK : ∀ k, Ahead i.gas k → k ∉ K) :
    g'.prec.gases = g.prec.gases ∧ g'.prec.erf.cols = g.prec.erf.cols ∧ g'.prec.spicy = g.prec.spicy ∧
    ∀ c ∈ g.prec.erf.cols, ∀ y, ns ≤ y → y ≤ ne → g'.prec.erf.val c y = g.prec.erf.val c y := by
  obtain ⟨emis, clbr, e, hcl, ht, hpre, -⟩ := ran_prec R
  obtain ⟨emis', clbr', e', hcl', ht', hpre', -⟩ := ran_prec R'
  have hgas := R.gases.once
  have hle := ht.nonempty
  have hcr := R.emission
  rw [ho.gas, hcl, Except.ok.injEq] at hcl'
  subst hcl'
  rw [ho.gas, ho.concIn, ho.pertForc, ho.concRun, hpert] at hpre'
  rw [ho.concIn, ho.concRun] at ht'
  rw [hpert] at hpre
  obtain ⟨hvg, hpc, hsp⟩ := mem_spicy hpre
  obtain ⟨hvg', hpc', hsp'⟩ := mem_spicy hpre'
  have hgs : g'.prec.gases = g.prec.gases := by
    rw [hvg, Except.ok.injEq] at hvg'
    exact hvg'.symm
  obtain ⟨hrows, -, -⟩ := precalcConc_rows hpc (concRun_pam _ _) ht
  obtain ⟨hrows', -, -⟩ := precalcConc_rows hpc' (concRun_pam _ _) ht'
  have key : ∀ c ∈ g.prec.gases, ∀ y, ns ≤ y → y ≤ ne →
      preSeries i.gas i.concIn emis' i.concRun es ne c y = preSeries i.gas i.concIn emis i.concRun es ne c y := by
    intro c hc y h1 h2
    unfold preSeries
    split
    · rfl
    · refine series_agree (ns := ns) (ht.order (by rw [concRun_pam, hcr])) (y := y) ?_ ?_ _ y h1 le_rfl rfl
      · intros; rfl
      · intro z z1 z2
        obtain ⟨a1, a2, a3⟩ := perturbedEmis_spec e
        obtain ⟨b1, b2, b3⟩ := perturbedEmis_spec e'
        obtain ⟨k, l, hk, hk1, hk2⟩ := ht.emisIdx
        have hz : z ∈ i.emis.idx := by
          rw [← a2, hk, mem_pyRange]; omega
        rw [a3 c z hz, b3 c z (by rw [ho.idx]; exact hz), usedEmis_only ho (hK c ((mem_vanilla hgas hvg c).1 hc))]
  have hf : ∀ (rows : List (Row ℝ)) (f : ℤ → String → ℝ), rows = (pyRange ns (ne + 1)).map (fun y => (y, f y)) →
      List.map Prod.fst rows = pyRange ns (ne + 1) := by
    intro rows f h
    rw [h, List.map_map]
    simp [Function.comp_def]
  have hr1 : g.prec.conc.map Prod.fst = pyRange ns (ne + 1) := hf _ _ hrows
  have hr2 : g'.prec.conc.map Prod.fst = pyRange ns (ne + 1) := hf _ _ hrows'
  obtain ⟨so3, late, -, -, -, -, hcols, hval⟩ := precalculate_spec (by omega) hpre hr1
  obtain ⟨so3', late', -, -, -, -, hcols', hval'⟩ := precalculate_spec (by omega) hpre' hr2
  refine ⟨hgs, by rw [hcols, hcols', hgs], by rw [hsp, hsp', hgs], ?_⟩
  intro c hc y h1 h2
  by_cases hs : c = "STRAT_O3"
  · subst hs
    refine (C15_depends (by omega) (by omega) hpre hpre' hr1 hr2 h1 (by omega) (by omega) ?_).symm
    intro c _ z _
    unfold rowAt
    rw [hgs]
    split
    · rename_i hcg
      rw [hrows, hrows', lookup_map_pyRange, lookup_map_pyRange]
      by_cases hz : ns ≤ z ∧ z < ne + 1
      · rw [if_pos hz, if_pos hz]
        simp only
        rw [key c hcg z (by omega) (by omega)]
      · rw [if_neg hz, if_neg hz]
    · rfl
  · have hcg : c ∈ g.prec.gases := by
      rcases (erf_cols_eq hgas hpre).2 c hc with h | h
      · exact h.1
      · exact absurd h hs
    have hrv : ∀ z, ns ≤ z → z ≤ ne → rowVal g'.prec.conc c z = rowVal g.prec.conc c z := by
      intro z z1 z2
      unfold rowVal
      rw [hrows, hrows', lookup_map_pyRange, lookup_map_pyRange, if_pos (by omega), if_pos (by omega)]
      exact key c hcg z z1 z2
    rw [hval c y h1 (by omega), hval' c y h1 (by omega), if_neg hs, if_neg hs, hrv y h1 h2, hrv ns le_rfl hle]

/-- No two forcing columns have the same name. -/
theorem ran_nodup (R : Ran cops tops i pamset ps p luc ns es ne g) (hSg : "SO4_DIR" ∉ i.gas.keys) :
    ((reportForcing g ns).map Prod.fst).Nodup := by
  obtain ⟨hg, he, ht, hp, carb, h0, d0, d, d1, t, hc, hd0, -, rfl, rfl, ha, hr, hs⟩ := R
  exact reportForcing_nodup hg.once hg.notTotal hSg ht hc hd0 ha hr hs _

end

end Verif.Props
