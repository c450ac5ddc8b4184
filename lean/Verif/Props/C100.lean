import Verif.Exec.MethaneRun
import Verif.Lemmas.Methane

/-!
# C100: more methane

Two concentration-driven runs that differ in the prescribed concentrations of methane only.
-/

namespace Verif.Props
open Verif.Py Verif.Py.Dict Verif.Model Verif.Model.Handler Verif.Model.Driver Verif.Model.ThermalInst Verif.Spec
open Verif.Lemmas.OneGas (halogen_keys)
open Verif.Lemmas.Co2 (prec_same)
open Verif.Lemmas.Methane
open Verif.Spec.Diffusion (Physical feedback Ordered Gentle)
open Verif.Spec.Tridiag (Exact)

variable {κ τ : Type}

/-- Two runs driven by concentrations, of instances whose inputs differ in the prescribed concentrations of methane only, new or
after the same runs, without a request for a single component: `d0` is the new instance, `d` the one that is run, `d1` and `g`
the instance and its tables afterwards. The components with a hemispheric weight are no gases with a concentration, and no gas is
called like a reported column that is not a gas. -/
structure MethaneRuns (cops : CarbonOps ℝ κ) (tops : ThermalOps ℝ τ) (i i' : Inputs ℝ) (p : RunPams ℝ) (d0 d d1 : Driver ℝ κ)
    (t : τ) (g : Handler ℝ κ) (d0' d' d1' : Driver ℝ κ) (t' : τ) (g' : Handler ℝ κ) (sm sn so sw : ℝ) : Prop where
  inputs : OnlyConcOf "CH4" i i'
  once : i.gas.keys.Nodup
  notTotal : "Total_forcing" ∉ i.gas.keys
  notDirect : "SO4_DIR" ∉ i.gas.keys
  gases : ∀ k x, i.gas.get? k = some x → x.concUnit ≠ "-" → nhWeight k = 1
  rows : MethaneRows i.gas sm sn so sw
  cols : ∀ c ∈ ["CO2", "N2O", "CH4"], c ∈ i.concIn.cols
  setting : SameSetting d0 d0'
  ran : run cops tops d p = .ok (d1, t)
  ran' : run cops tops d' p = .ok (d1', t')
  after : d1.source = .handler g
  after' : d1'.source = .handler g'
  history : ∃ pamset carb es ps h0 h0', RunTables i.concIn i.emis
      (Dict.set (Factory.checkPamset pamset) "conc_run" (.bool i.concRun)) d0.nystart es d0.nyend ∧
    construct cops i pamset carb = .ok h0 ∧ construct cops i' pamset carb = .ok h0' ∧
    d0.source = .handler h0 ∧ d0'.source = .handler h0' ∧ After cops tops d0 ps d ∧ After cops tops d0' ps d' ∧
    NoJustOne pamset ps p

/-- What the run fixes: the parameters `qo3`, `qh2o_ch4` and `ref_yr`, and the ozone of the start year. The methane of the start
year and of the reference year is the same in both inputs. -/
structure MethaneSetting (i i' : Inputs ℝ) (g : Handler ℝ κ) (ns : ℤ) (qo qw o0 : ℝ) : Prop where
  start : i'.concIn.cell "CH4" ns = i.concIn.cell "CH4" ns
  reference : ∀ ref, pamI g.pam "ref_yr" = .ok ref → i'.concIn.cell "CH4" ref = i.concIn.cell "CH4" ref
  ozone : pamF g.pam "qo3" = .ok qo
  water : pamF g.pam "qh2o_ch4" = .ok qw
  first : ∀ c ∈ reportConc g, c.1 = "TROP_O3" → c.2 ns = some o0

section
variable {cops : CarbonOps ℝ κ} {tops : ThermalOps ℝ τ} {i i' : Inputs ℝ} {p : RunPams ℝ} {d0 d d1 d0' d' d1' : Driver ℝ κ}
  {t t' : τ} {g g' : Handler ℝ κ} {sm sn so sw : ℝ}

theorem methane_tables {pamset : Option (Dict (PyVal ℝ))} {ns es ne : ℤ} (hi : OnlyConcOf "CH4" i i')
    (ht : RunTables i.concIn i.emis (Dict.set (Factory.checkPamset pamset) "conc_run" (.bool i.concRun)) ns es ne) :
    RunTables i'.concIn i'.emis (Dict.set (Factory.checkPamset pamset) "conc_run" (.bool i'.concRun)) ns es ne := by
  have hcr : i'.concRun = i.concRun := by rw [hi.concRun, hi.concRun']
  rw [hcr, hi.emis]
  exact ⟨ht.nystart, ht.nyend, ht.emstart, by rw [hi.idx]; exact ht.concIdx, ht.emisIdx, ht.nonempty, ht.order⟩

theorem MethaneRuns.plain (R : MethaneRuns cops tops i i' p d0 d d1 t g d0' d' d1' t' g' sm sn so sw) :
    RanPlain cops tops i p d0 d d1 t g := by
  obtain ⟨pamset, carb, es, ps, h0, h0', ht, hc, hc', hd0, hd0', ha, ha', hj⟩ := R.history
  exact ⟨R.once, R.notTotal, R.notDirect, R.gases, R.ran, R.after, pamset, carb, es, ps, h0, ht, hc, hd0, ha, hj⟩

theorem MethaneRuns.plain' (R : MethaneRuns cops tops i i' p d0 d d1 t g d0' d' d1' t' g' sm sn so sw) :
    RanPlain cops tops i' p d0' d' d1' t' g' := by
  obtain ⟨pamset, carb, es, ps, h0, h0', ht, hc, hc', hd0, hd0', ha, ha', hj⟩ := R.history
  refine ⟨by rw [R.inputs.gas]; exact R.once, by rw [R.inputs.gas]; exact R.notTotal, by rw [R.inputs.gas]; exact R.notDirect,
    by rw [R.inputs.gas]; exact R.gases, R.ran', R.after', pamset, carb, es, ps, h0', ?_, hc', hd0', ha', hj⟩
  rw [R.setting.first, R.setting.last]
  exact methane_tables R.inputs ht

/-- The tables computed ahead and the parameters are the same. -/
theorem construct_methane {pamset carb : Option (Dict (PyVal ℝ))} {h h' : Handler ℝ κ} {ns es ne : ℤ}
    (hi : OnlyConcOf "CH4" i i') (hgas : i.gas.keys.Nodup)
    (ht : RunTables i.concIn i.emis (Dict.set (Factory.checkPamset pamset) "conc_run" (.bool i.concRun)) ns es ne)
    (e : construct cops i pamset carb = .ok h) (e' : construct cops i' pamset carb = .ok h') :
    h'.pam = h.pam ∧ h'.gas.keys = h.gas.keys ∧ h.gas = i.gas ∧ h'.gas = i.gas ∧ h'.prec.gases = h.prec.gases ∧
      h'.prec.spicy = h.prec.spicy ∧ h'.prec.erf.cols = h.prec.erf.cols ∧
      ∀ c ∈ h.prec.erf.cols, ∀ y, h'.prec.erf.val c y = h.prec.erf.val c y := by
  obtain ⟨emis0, -, -, q1, q2, -⟩ := constructed e ht
  obtain ⟨ns1, ne1, emis, clbr, prec, pre, k0, kk, h1, h2, h3, h4, h5, h6, h7, h8, rfl⟩ := construct_spec e
  obtain ⟨ns2, ne2, emis', clbr', prec', pre', k0', kk', g1, g2, g3, g4, g5, g6, g7, g8, rfl⟩ := construct_spec e'
  rw [h3, Except.ok.injEq] at q1
  subst q1
  rw [h1, Except.ok.injEq] at g1
  rw [h2, Except.ok.injEq] at g2
  subst g1 g2
  have hem : perturbedEmis i' = perturbedEmis i := by unfold perturbedEmis; rw [hi.emis, hi.pertEm]
  rw [hem, h3, Except.ok.injEq] at g3
  subst g3
  rw [hi.gas, h4, Except.ok.injEq] at g4
  subst g4
  have hset : ∀ k, k ≠ "conc_run" → pamI (Dict.set (Factory.checkPamset pamset) "conc_run"
      (.bool i.concRun)) k = pamI (Factory.checkPamset pamset) k := by
    intro k hk
    unfold pamI Dict.getE
    rw [Dict.get?_set, if_neg (fun e => hk e.symm)]
  have hns := ht.nystart
  have hne := ht.nyend
  rw [hset _ (by decide), h1, Except.ok.injEq] at hns
  rw [hset _ (by decide), h2, Except.ok.injEq] at hne
  subst hns hne
  have hcr : i'.concRun = i.concRun := by rw [hi.concRun, hi.concRun']
  rw [hcr, hi.gas, hi.pertForc] at g5
  have hrun : pamB (Dict.set (Factory.checkPamset pamset) "conc_run" (.bool i.concRun)) "conc_run" = .ok true := by
    unfold pamB Dict.getE
    rw [Dict.get?_set, if_pos rfl, hi.concRun]
    rfl
  have ht' : RunTables i'.concIn emis (Dict.set (Factory.checkPamset pamset) "conc_run" (.bool i.concRun)) ns1 es ne1 :=
    ⟨q2.nystart, q2.nyend, q2.emstart, by rw [hi.idx]; exact q2.concIdx, q2.emisIdx, q2.nonempty, q2.order⟩
  obtain ⟨hcl, hbr⟩ := halogen_keys (k := "CH4") (by decide +kernel) (show PubUtils.clBrLoop [] [] i.gas.keys = .ok clbr from h4)
    (by simp [Dict.keys]) (by simp [Dict.keys])
  obtain ⟨c1, c2, c3, -, -⟩ := prec_same (k := "CH4") (by simp) hrun q2 ht' hgas hcl hbr hi.others h5 g5
  refine ⟨?_, ?_, rfl, hi.gas, c1, c3, c2.1, c2.2⟩
  · simp only [hi.gas, hcr]
  · simp only [hi.gas]

/-- The tables of a handler after a run. -/
theorem run_keys {pamset carb : Option (Dict (PyVal ℝ))} {h0 : Handler ℝ κ} {ps : List (RunPams ℝ)}
    (hg0 : h0.gas = i.gas) (hd0 : d0.source = .handler h0)
    (ha : After cops tops d0 ps d) (hr : run cops tops d p = .ok (d1, t)) (hg : d1.source = .handler g) :
    g.concKeys = concKeysOf i.gas h0.prec.spicy ∧ g.forcKeys = forcKeysOf h0.prec.spicy ∧ g.prec = h0.prec ∧
      g.gas.keys = i.gas.keys := by
  obtain ⟨h, hd, -, kept, -⟩ := after_spec yearLaw_real hd0 ha (fun _ => True) trivial
    (fun _ _ _ _ _ _ _ => trivial) (fun _ _ _ _ _ _ => trivial)
  obtain ⟨g0, g1, hre, hg1, hs, hk, -⟩ := run_handler_spec hd hr
  rw [hg, Source.handler.injEq] at hg1
  subst hg1
  obtain ⟨pam, c, -, -, rfl⟩ := reset_spec hre
  have hgas : ∀ t, (h.gas.get? t).map (canon t) = (i.gas.get? t).map (canon t) := by
    intro t; rw [kept.gas, hg0]
  refine ⟨?_, ?_, ?_, ?_⟩
  · rw [hs.concKeys]
    show concKeysOf h.gas h.prec.spicy = _
    rw [concKeysOf_congr hgas, kept.prec]
  · rw [hs.forcKeys]
    show forcKeysOf h.prec.spicy = _
    rw [kept.prec]
  · rw [hs.prec]
    exact kept.prec
  · rw [hk]
    show h.gas.keys = _
    rw [kept.keys, hg0]

/-- The forcing of a component in a year of a run, from any data that agree with what is reported. -/
theorem forc_value {pamset carb : Option (Dict (PyVal ℝ))} {h0 : Handler ℝ κ} {es : ℤ} {ps : List (RunPams ℝ)}
    (hgas : i.gas.keys.Nodup) (hTg : "Total_forcing" ∉ i.gas.keys)
    (ht : RunTables i.concIn i.emis (Dict.set (Factory.checkPamset pamset) "conc_run" (.bool i.concRun))
      d0.nystart es d0.nyend)
    (hc : construct cops i pamset carb = .ok h0) (hd0 : d0.source = .handler h0)
    (ha : After cops tops d0 ps d) (hr : run cops tops d p = .ok (d1, t)) (hg : d1.source = .handler g)
    {y : ℤ} (hy1 : d0.nystart ≤ y) (hy2 : y ≤ d0.nyend) :
    ∃ emis luc, perturbedEmis i = .ok emis ∧ d0.luc[(y - d0.nystart).toNat]? = some luc ∧
      ∀ D, Observed g i emis luc d0.nystart y D → ∀ k ∈ g.forcKeys, k ≠ "Total_forcing" →
        g.forc k (y - d0.nystart).toNat = D.forcing k + pertOf i.pertForc k y := by
  obtain ⟨emis, a, b, c, fb, luc, sun, r, Y, hluc, -⟩ := run_year yearLaw_real ht hc hd0 ha hr hg hy1 hy2
  refine ⟨emis, luc, Y.emisE, hluc, ?_⟩
  intro D hD k hkf hkT
  obtain ⟨emis', cl, br, he, ht2, hpre, hcg, hci, hce, hcp, hcy⟩ := constructed hc ht
  obtain ⟨hvg, -, hsp⟩ := mem_spicy hpre
  obtain ⟨q1, q2, -⟩ := run_keys (pamset := pamset) (carb := carb) hcg hd0 ha hr hg
  have hcc : ∀ t ∈ g.concKeys, t ∈ i.gas.keys := by
    intro t htm
    rw [q1] at htm
    have := (List.mem_filter.1 htm).1
    rw [hsp] at this
    exact (List.mem_filter.1 this).1
  obtain ⟨k1, k2, k3, k4, k5, -⟩ := run_forcing hgas hTg ht hc Y hy1 hy2
  have hkg : k ∈ i.gas.keys := by
    rw [q2] at hkf
    unfold forcKeysOf at hkf
    simp only at hkf
    have : k ∈ h0.prec.spicy := by
      split at hkf
      · exact (List.mem_filter.1 hkf).1
      · rcases List.mem_append.1 hkf with h | h
        · exact (List.mem_filter.1 h).1
        · exact absurd (List.mem_singleton.1 h) hkT
    rw [hsp] at this
    exact (List.mem_filter.1 this).1
  have sg := Y.sameC.trans Y.sameG
  have key := C59_year Y.forc k5 k1 (dataOf_year Y hy2 hcc hD) (by rw [← sg.forcKeys]; exact hkf) hkT
    (by rw [Y.keysB]; exact hkg)
  rw [Y.forcY, key, Y.sameB.pert, Y.pert]

/-- The formulas of all components, with other concentrations of methane and ozone. -/
theorem forcing_reach {D : ForcingData} {c : String → ℤ → ℝ} {u u' : String → ℤ → ℝ} {qo qw o0 : ℝ} {k : String}
    (same : ∀ k, k ≠ "CH4" → k ≠ "TROP_O3" → ∀ z ∈ [D.start, D.year], c k z = D.conc k z)
    (main : ∀ k ∈ ["CO2", "N2O", "CH4"], ∀ z ∈ [D.start, D.year], D.conc k z = u k z ∧ c k z = u' k z)
    (hsm : D.sarf "CH4" = sm) (hsn : D.sarf "N2O" = sn)
    (hoz : k = "TROP_O3" → D.alpha k = 0 ∧ D.sarf k = so ∧ D.par "qo3" = qo ∧ D.conc k D.start = o0 ∧ c k D.start = o0 ∧
      c k D.year = D.conc k D.year + 6.7 * (Real.log (u' "CH4" D.year) - Real.log (u "CH4" D.year)))
    (hwa : k = "STRAT_H2O" → D.alpha k = 0 ∧ D.sarf k = sw ∧ D.par "qh2o_ch4" = qw) :
    ({ D with conc := c } : ForcingData).forcing k =
      D.forcing k + methaneReach sm sn so sw qo qw o0 u u' D.start D.year k := by
  have hs : D.start ∈ [D.start, D.year] := by simp
  have hy : D.year ∈ [D.start, D.year] := by simp
  have hme : ({ D with conc := c } : ForcingData).methane = D.methane + methaneEffect sm u u' D.start D.year := by
    unfold ForcingData.methane methaneEffect
    simp only [hsm]
    rw [(main "CH4" (by simp) _ hs).1, (main "CH4" (by simp) _ hs).2, (main "CH4" (by simp) _ hy).1, (main "CH4" (by simp) _ hy).2,
      (main "N2O" (by simp) _ hs).1, (main "N2O" (by simp) _ hs).2, (main "N2O" (by simp) _ hy).1, (main "N2O" (by simp) _ hy).2]
    ring
  unfold ForcingData.forcing methaneReach
  by_cases h1 : k = "CO2"
  · subst h1
    simp only [if_true, if_neg (show ("CO2" : String) ≠ "CH4" by decide), if_neg (show ("CO2" : String) ≠ "N2O" by decide),
      if_neg (show ("CO2" : String) ≠ "STRAT_H2O" by decide), if_neg (show ("CO2" : String) ≠ "TROP_O3" by decide), add_zero]
    rw [same "CO2" (by decide) (by decide) _ hs, same "CO2" (by decide) (by decide) _ hy,
      same "N2O" (by decide) (by decide) _ hs, same "N2O" (by decide) (by decide) _ hy]
  rw [if_neg h1, if_neg h1]
  by_cases h2 : k = "CH4"
  · rw [if_pos h2, if_pos h2, if_pos h2, hme]
  rw [if_neg h2, if_neg h2, if_neg h2]
  by_cases h3 : k = "N2O"
  · rw [if_pos h3, if_pos h3, if_pos h3]
    unfold overlapEffect
    simp only [hsn]
    rw [(main "CH4" (by simp) _ hs).1, (main "CH4" (by simp) _ hs).2, (main "CH4" (by simp) _ hy).1, (main "CH4" (by simp) _ hy).2,
      (main "N2O" (by simp) _ hs).1, (main "N2O" (by simp) _ hs).2, (main "N2O" (by simp) _ hy).1, (main "N2O" (by simp) _ hy).2,
      (main "CO2" (by simp) _ hs).1, (main "CO2" (by simp) _ hs).2, (main "CO2" (by simp) _ hy).1, (main "CO2" (by simp) _ hy).2]
    ring
  rw [if_neg h3, if_neg h3, if_neg h3]
  have haer : ({ D with conc := c } : ForcingData).aerosol k = D.aerosol k := rfl
  by_cases h4 : k = "STRAT_H2O"
  · obtain ⟨w1, w2, w3⟩ := hwa h4
    subst h4
    simp only [if_neg (show ("STRAT_H2O" : String) ≠ "LANDUSE" by decide), if_neg not_aerosol_strings.2, w1, w2, w3, ne_eq,
      not_true_eq_false, if_false, if_neg (show ("STRAT_H2O" : String) ≠ "TROP_O3" by decide), if_true]
    rw [hme]
    ring
  rw [if_neg h4, if_neg h4, if_neg h4]
  by_cases h5 : k = "TROP_O3"
  · obtain ⟨o1, o2, o3, o4, o5, o6⟩ := hoz h5
    subst h5
    simp only [if_neg (show ("TROP_O3" : String) ≠ "LANDUSE" by decide), if_neg not_aerosol_strings.1, o1, ne_eq,
      not_true_eq_false, if_false, if_true]
    unfold ForcingData.ozone ozoneEffect
    simp only [o2, o3, o4, o5, o6]
    split
    · ring
    · ring
  simp only [if_neg h5, if_neg h4, add_zero, haer, same k h2 h5 _ hs, same k h2 h5 _ hy]

/-- The three main gases have a forcing and a concentration. -/
theorem main_keys {gas : Dict (Gas ℝ)} {spicy : List String} (hsp : ∀ k ∈ ["CO2", "N2O", "CH4"], k ∈ spicy)
    (hx : ∀ k ∈ ["CO2", "N2O", "CH4"], ∃ x, gas.get? k = some x ∧ x.concUnit ≠ "-") {k : String} (hk : k ∈ ["CO2", "N2O", "CH4"]) :
    k ∈ concKeysOf gas spicy ∧ k ∈ forcKeysOf spicy := by
  obtain ⟨x, hx, hu⟩ := hx k hk
  have h1 := hsp k hk
  have h2 : k ≠ "CO2.1" := by rintro rfl; simp at hk
  have hg : gasOr gas k = x := by unfold gasOr; rw [hx]; rfl
  refine ⟨List.mem_filter.2 ⟨h1, by simp [h2, hg, hu]⟩, ?_⟩
  have : k ∈ spicy.filter (fun t => t ≠ "CO2.1") := List.mem_filter.2 ⟨h1, by simp [h2]⟩
  unfold forcKeysOf
  simp only
  split
  · exact this
  · exact List.mem_append_left _ this

/-- A component with a forcing other than the total is in the table of gases. -/
theorem forced_gas {spicy : List String} {k : String} (hk : k ∈ forcKeysOf spicy) (hkT : k ≠ "Total_forcing") : k ∈ spicy := by
  unfold forcKeysOf at hk
  simp only at hk
  split at hk
  · exact (List.mem_filter.1 hk).1
  · rcases List.mem_append.1 hk with h | h
    · exact (List.mem_filter.1 h).1
    · exact absurd (List.mem_singleton.1 h) hkT

set_option maxHeartbeats 1000000 in
theorem run_forced {u : ℤ} (R : MethaneRuns cops tops i i' p d0 d d1 t g d0' d' d1' t' g' sm sn so sw) {qo qw o0 : ℝ}
    (S : MethaneSetting i i' g d0.nystart qo qw o0) (hy1 : d0.nystart ≤ u) (hy2 : u ≤ d0.nyend) :
    g'.forcKeys = g.forcKeys ∧ g'.prec.erf.cols = g.prec.erf.cols ∧
    (∀ c ∈ g.prec.erf.cols, g'.prec.erf.val c u = g.prec.erf.val c u ∧
      methaneReach sm sn so sw qo qw o0 i.concIn.cell i'.concIn.cell d0.nystart u c = 0) ∧
    ("CH4" ∈ g.forcKeys ∧ "N2O" ∈ g.forcKeys) ∧
    ∀ k ∈ g.forcKeys, k ≠ "Total_forcing" → g'.forc k (u - d0.nystart).toNat = g.forc k (u - d0.nystart).toNat +
      methaneReach sm sn so sw qo qw o0 i.concIn.cell i'.concIn.cell d0.nystart u k := by
  obtain ⟨pamset, carb, es, ps, h0, h0', ht, hc, hc', hd0, hd0', ha, ha', hj⟩ := R.history
  have hi := R.inputs
  have ht' : RunTables i'.concIn i'.emis (Dict.set (Factory.checkPamset pamset) "conc_run" (.bool i'.concRun)) d0'.nystart es
      d0'.nyend := by
    rw [R.setting.first, R.setting.last]
    exact methane_tables hi ht
  have hle := ht.nonempty
  obtain ⟨c1, c2, c3, c4, c5, c6, c7, c8⟩ := construct_methane hi R.once ht hc hc'
  obtain ⟨q1, q2, q3, q4⟩ := run_keys (pamset := pamset) (carb := carb) c3 hd0 ha R.ran R.after
  obtain ⟨q1', q2', q3', q4'⟩ := run_keys (pamset := pamset) (carb := carb) c4 hd0' ha' R.ran' R.after'
  obtain ⟨h, h', s, s', z1, z2⟩ := after_pam hd0 hd0' c1 c2 ha ha'
  obtain ⟨m, m', w, w', hpam, -⟩ := run_pam s s' z1 z2 R.ran R.ran'
  rw [R.after, Source.handler.injEq] at w
  rw [R.after', Source.handler.injEq] at w'
  subst w w'
  rw [c6] at q1' q2'
  obtain ⟨emis', cl, br, he, ht2, hpre, hcg, hci, hce, hcp, hcy⟩ := constructed hc ht
  obtain ⟨hvg, -, hsp⟩ := mem_spicy hpre
  have hn : g.gas.keys.Nodup := by rw [q4]; exact R.once
  have hn' : g'.gas.keys.Nodup := by rw [q4']; exact R.once
  have names : (reportConc g').map Prod.fst = (reportConc g).map Prod.fst := by
    rw [report_names, report_names, q4, q4', q1, q1', q3, q3', c5]
  have spicy : ∀ k ∈ ["CO2", "N2O", "CH4"], k ∈ h0.prec.spicy := by
    intro k hk
    obtain ⟨x, hx, -⟩ := R.rows.main k hk
    rw [hsp]
    refine List.mem_filter.2 ⟨(get?_isSome_iff _ _).1 ⟨x, hx⟩, ?_⟩
    have : k ∉ h0.prec.gases := by
      intro h
      obtain ⟨x, -, -, n1, n2, n3⟩ := (mem_vanilla R.once hvg k).1 h
      simp only [List.mem_cons, List.not_mem_nil, or_false] at hk
      exact hk.elim n1 (fun h => h.elim n3 n2)
    have h2 : k ≠ "STRAT_O3" := by rintro rfl; simp at hk
    simp [this, h2]
  have mainCol : ∀ k ∈ ["CO2", "N2O", "CH4"], k ∈ g.concKeys := by
    intro k hk
    rw [q1]
    exact (main_keys spicy R.rows.main hk).1
  have keyMem : ∀ k ∈ ["CO2", "N2O", "CH4"], k ∈ g.forcKeys := by
    intro k hk
    rw [q2]
    exact (main_keys spicy R.rows.main hk).2
  -- concentrations other than ozone
  have val : ∀ k ∈ (reportConc g).map Prod.fst, k ≠ "TROP_O3" → ∀ z, d0.nystart ≤ z → z ≤ d0.nyend →
      concVal g k z = (if k ∈ i.concIn.cols then i.concIn.cell k z else 0.0) ∧
      concVal g' k z = (if k ∈ i.concIn.cols then i'.concIn.cell k z else 0.0) := by
    intro k hk hO z a b
    have hk' := hk
    rw [← names] at hk'
    obtain ⟨c, hcm, rfl⟩ := List.mem_map.1 hk
    obtain ⟨c', hcm', e⟩ := List.mem_map.1 hk'
    have v := conc_reported yearLaw_real ht hc hd0 ha R.ran R.after a b (Or.inl hi.concRun) hcm (Or.inl hi.concRun) hO
    have v' := conc_reported yearLaw_real ht' hc' hd0' ha' R.ran' R.after' (show d0'.nystart ≤ z by rw [R.setting.first]; exact a)
      (by rw [R.setting.last]; exact b) (Or.inl hi.concRun') hcm' (Or.inl hi.concRun') (by rw [e]; exact hO)
    refine ⟨concVal_col hn hcm v, ?_⟩
    rw [← e, concVal_col hn' hcm' v', hi.cols]
  have same : ∀ k, k ≠ "CH4" → k ≠ "TROP_O3" → ∀ z, d0.nystart ≤ z → z ≤ d0.nyend → concVal g' k z = concVal g k z := by
    intro k h1 h2 z a b
    by_cases hk : k ∈ (reportConc g).map Prod.fst
    · obtain ⟨v, v'⟩ := val k hk h2 z a b
      rw [v, v', hi.others k h1]
    · unfold concVal
      rw [lookup_absent hk, lookup_absent (by rw [names]; exact hk)]
  have main : ∀ k ∈ ["CO2", "N2O", "CH4"], ∀ z, d0.nystart ≤ z → z ≤ d0.nyend →
      concVal g k z = i.concIn.cell k z ∧ concVal g' k z = i'.concIn.cell k z := by
    intro k hk z a b
    have hm : k ∈ (reportConc g).map Prod.fst := by
      rw [report_names]
      refine List.mem_filter.2 ⟨?_, by simp [mainCol k hk]⟩
      obtain ⟨x, hx, -⟩ := R.rows.main k hk
      rw [q4]
      exact (get?_isSome_iff _ _).1 ⟨x, hx⟩
    obtain ⟨v, v'⟩ := val k hm (by rintro rfl; simp at hk) z a b
    rw [v, v', if_pos (R.cols k hk), if_pos (R.cols k hk)]
    exact ⟨rfl, rfl⟩
  -- data that agree with the reports of both runs
  have data : ∀ emis luc z, ∃ D, D.conc = concVal g ∧ Observed g i emis luc d0.nystart z D ∧
      Observed g' i' emis luc d0.nystart z { D with conc := concVal g' } := by
    intro emis luc z
    obtain ⟨D, hD⟩ := observed_exists g i emis luc d0.nystart z hn
    refine ⟨{ D with conc := concVal g }, rfl, ⟨fun c hc z v hv => concVal_col hn hc hv, hD.emis, hD.alpha, hD.sarf, hD.par,
      hD.landUse, hD.start, hD.year⟩, ⟨fun c hc z v hv => concVal_col hn' hc hv, hD.emis, ?_, ?_, ?_, hD.landUse, hD.start,
      hD.year⟩⟩
    · rw [hi.gas]; exact hD.alpha
    · rw [hi.gas]; exact hD.sarf
    · rw [hpam]; exact hD.par
  have hem : perturbedEmis i' = perturbedEmis i := by unfold perturbedEmis; rw [hi.emis, hi.pertEm]
  -- ozone
  have ozone : "TROP_O3" ∈ i.gas.keys → ∀ z, d0.nystart ≤ z → z ≤ d0.nyend → concVal g' "TROP_O3" z =
      concVal g "TROP_O3" z + 6.7 * (Real.log (i'.concIn.cell "CH4" z) - Real.log (i.concIn.cell "CH4" z)) := by
    intro hO z a b
    obtain ⟨x, hx⟩ := (get?_isSome_iff _ _).2 hO
    obtain ⟨o1, o2, o3⟩ := R.rows.ozone x hx
    have hyr : Yearly i.gas "TROP_O3" := ⟨x, hx, Or.inl o1, by decide, by decide⟩
    obtain ⟨emis, ref, m0, e1, e2, e3, e4⟩ := C59_run_ozone R.once R.notTotal ht hc hd0 ha R.ran R.after a b hyr hx o2
    obtain ⟨emis2, ref2, m02, f1, f2, f3, f4⟩ := C59_run_ozone (y := z) (by rw [hi.gas]; exact R.once) (by rw [hi.gas]; exact R.notTotal)
      ht' hc' hd0' ha' R.ran' R.after' (by rw [R.setting.first]; exact a) (by rw [R.setting.last]; exact b)
      (by rw [hi.gas]; exact hyr) (by rw [hi.gas]; exact hx) o2
    rw [hem, e1, Except.ok.injEq] at f1
    rw [hpam, e2, Except.ok.injEq] at f2
    subst f1 f2
    have hm0 : m02 = m0 := by
      rw [frame_at'_eq_ok] at e3 f3
      rw [← e3.2.2, ← f3.2.2, S.reference ref e2]
    subst hm0
    obtain ⟨D, hD, k1, k2⟩ := data emis 0 z
    obtain ⟨c, g1, g2, g3⟩ := e4 D 0 k1
    obtain ⟨c', g1', g2', g3'⟩ := f4 { D with conc := concVal g' } 0 (by rw [R.setting.first]; exact k2)
    have v := concVal_col hn g1 g3
    have v' := concVal_col hn' g1' g3'
    rw [g2] at v
    rw [g2'] at v'
    rw [v, v']
    unfold ForcingData.ozoneConc
    have hz : D.year = z := k1.year
    simp only [hD, hz]
    rw [(main "CH4" (by simp) z a b).1, (main "CH4" (by simp) z a b).2]
    ring
  refine ⟨by rw [q2, q2'], by rw [q3, q3', c7], ?_, ⟨keyMem _ (by simp), keyMem _ (by simp)⟩, ?_⟩
  · intro c hcm
    rw [q3] at hcm
    refine ⟨by rw [q3, q3', c8 c hcm], ?_⟩
    unfold methaneReach
    rcases (erf_cols_eq R.once hpre).2 c hcm with ⟨a, -⟩ | rfl
    · obtain ⟨x, hx, hu, n1, n2, n3⟩ := (mem_vanilla R.once hvg c).1 a
      rw [if_neg n2, if_neg n3, if_neg (by rintro rfl; exact hu (R.rows.water x hx).1),
        if_neg (by rintro rfl; exact hu (R.rows.ozone x hx).1)]
    · simp
  · intro k hk hkT
    obtain ⟨emis, luc, e1, e2, e3⟩ := forc_value R.once R.notTotal ht hc hd0 ha R.ran R.after hy1 hy2
    obtain ⟨emis2, luc2, f1, f2, f3⟩ := forc_value (by rw [hi.gas]; exact R.once) (by rw [hi.gas]; exact R.notTotal)
      ht' hc' hd0' ha' R.ran' R.after' (y := u) (by rw [R.setting.first]; exact hy1) (by rw [R.setting.last]; exact hy2)
    rw [hem, e1, Except.ok.injEq] at f1
    rw [R.setting.luc, R.setting.first, e2, Option.some.injEq] at f2
    subst f1 f2
    rw [R.setting.first] at f3
    obtain ⟨D, hD, k1, k2⟩ := data emis luc u
    rw [e3 D k1 k hk hkT, f3 _ k2 k (by rw [q2', ← q2]; exact hk) hkT, hi.pertForc]
    have hst := k1.start
    have hyr := k1.year
    have hb : ∀ z ∈ [D.start, D.year], d0.nystart ≤ z ∧ z ≤ d0.nyend := by
      intro z hz
      simp only [hst, hyr, List.mem_cons, List.not_mem_nil, or_false] at hz
      rcases hz with rfl | rfl <;> omega
    have hkg : k ∈ i.gas.keys := by
      rw [q2] at hk
      have := forced_gas hk hkT
      rw [hsp] at this
      exact (List.mem_filter.1 this).1
    obtain ⟨x, hx⟩ := (get?_isSome_iff _ _).2 hkg
    have key := forcing_reach (D := D) (c := concVal g') (u := i.concIn.cell) (u' := i'.concIn.cell) (qo := qo) (qw := qw)
      (o0 := o0) (k := k) (sm := sm) (sn := sn) (so := so) (sw := sw)
      (fun k a b z hz => by rw [hD]; exact same k a b z (hb z hz).1 (hb z hz).2)
      (fun k hk z hz => by rw [hD]; exact main k hk z (hb z hz).1 (hb z hz).2)
      (by obtain ⟨x, hx, hs⟩ := R.rows.ch4; rw [k1.sarf _ x hx, hs])
      (by obtain ⟨x, hx, hs⟩ := R.rows.n2o; rw [k1.sarf _ x hx, hs])
      (by
        rintro rfl
        obtain ⟨o1, o2, o3⟩ := R.rows.ozone x hx
        have first : concVal g "TROP_O3" d0.nystart = o0 := by
          obtain ⟨emis, a, b, c, fb, luc, sun, r, Y, -⟩ := run_year yearLaw_real ht hc hd0 ha R.ran R.after le_rfl hle
          have hyr : Yearly i.gas "TROP_O3" := ⟨x, hx, Or.inl o1, by decide, by decide⟩
          obtain ⟨emis2, ref, m0, e1, e2, e3, e4⟩ := C59_run_ozone R.once R.notTotal ht hc hd0 ha R.ran R.after le_rfl hle hyr hx o2
          obtain ⟨D2, -, k12, -⟩ := data emis2 0 d0.nystart
          obtain ⟨c, g1, g2, -⟩ := e4 D2 0 k12
          rw [← g2]
          exact concVal_col hn g1 (S.first c g1 g2)
        refine ⟨by rw [k1.alpha _ x hx, o2], by rw [k1.sarf _ x hx, o3], k1.par _ _ S.ozone, by rw [hD, hst]; exact first, ?_, ?_⟩
        · rw [hst, ozone hkg _ le_rfl hle, first, S.start]
          ring
        · rw [hyr, hD, ozone hkg _ hy1 hy2])
      (by
        rintro rfl
        obtain ⟨o1, o2, o3⟩ := R.rows.water x hx
        exact ⟨by rw [k1.alpha _ x hx, o2], by rw [k1.sarf _ x hx, o3], k1.par _ _ S.water⟩)
    rw [key, hst, hyr]
    ring

/-- **C100**, forcings: for every two concentration-driven runs, of instances that differ in the prescribed methane only (with the
same methane in the start year and in the reference year), new or after the same runs, with every carbon cycle and thermal model,
in every year: the reports have the same components, and each component differs by the documented effect of the methane, that is
CH4 by its formula, N2O by the overlap, stratospheric water vapour and tropospheric ozone by their parts, and no other at all. -/
theorem C100_forcing {y : ℤ} (R : MethaneRuns cops tops i i' p d0 d d1 t g d0' d' d1' t' g' sm sn so sw) {qo qw o0 : ℝ}
    (S : MethaneSetting i i' g d0.nystart qo qw o0) (hout : (tops.outputs.map Prod.fst ++ forcOutputList).Nodup)
    (hy1 : d0.nystart ≤ y) (hy2 : y ≤ d0.nyend) :
    List.Forall₂ (fun c c' => c'.1 = c.1 ∧ (c.1 ≠ "Total_forcing" → ∃ v, c.2 y = some v ∧
      c'.2 y = some (v + methaneReach sm sn so sw qo qw o0 i.concIn.cell i'.concIn.cell d0.nystart y c.1)))
      (reportForcing g d0.nystart) (reportForcing g' d0.nystart) := by
  obtain ⟨k1, k2, k3, -, k4⟩ := run_forced R S hy1 hy2
  have T := R.plain.settled
  have T' := R.plain'.settled
  rw [R.setting.first, R.setting.last] at T'
  have hir : ∀ {g : Handler ℝ κ} {i : Inputs ℝ}, Settled i d0.nystart d0.nyend g →
      ¬ (y < d0.nystart ∨ g.years.length ≤ (y - d0.nystart).toNat) := by
    intro g i T
    rw [T.years, pyRange_length]; omega
  have name : ∀ k, methaneReach sm sn so sw qo qw o0 i.concIn.cell i'.concIn.cell d0.nystart y (reportName k) =
      methaneReach sm sn so sw qo qw o0 i.concIn.cell i'.concIn.cell d0.nystart y k := by
    intro k
    unfold reportName
    split
    · rename_i h
      subst h
      simp [methaneReach]
    · rfl
  have some := (C05_run R.plain hout hy1 hy2).1
  unfold reportForcing
  rw [k1, k2]
  refine List.rel_append ?_ ?_
  · rw [List.forall₂_map_left_iff, List.forall₂_map_right_iff, List.forall₂_same]
    intro k hk
    refine ⟨rfl, fun hT => ?_⟩
    have hT' : k ≠ "Total_forcing" := by rintro rfl; exact hT rfl
    simp only [hir T, hir T', if_false]
    exact ⟨_, rfl, by rw [name, k4 k hk hT']⟩
  · rw [List.forall₂_map_left_iff, List.forall₂_map_right_iff, List.forall₂_same]
    intro k hk
    refine ⟨rfl, fun hT => ?_⟩
    obtain ⟨q1, q2⟩ := k3 k hk
    have := some (reportName k, fun y => g.prec.erf.val k y) (List.mem_append_right _ (List.mem_map.2 ⟨k, hk, rfl⟩))
    obtain ⟨v, hv⟩ := Option.isSome_iff_exists.1 this
    exact ⟨v, hv, by simp only [name, q1, q2, add_zero]; exact hv⟩

theorem sum_reach : ∀ {l : List String} {f : String → ℝ}, l.Nodup → "CH4" ∈ l → "N2O" ∈ l → (∀ k ∈ l, k ≠ "N2O" → 0 ≤ f k) →
    0 ≤ f "CH4" + f "N2O" → 0 ≤ (l.map f).sum := by
  intro l f hn h1 h2 hf h
  have p1 := List.perm_cons_erase h2
  have h3 : "CH4" ∈ l.erase "N2O" := (List.mem_erase_of_ne (by decide)).2 h1
  have p2 := List.perm_cons_erase h3
  have p := p1.trans (p2.cons "N2O")
  rw [(p.map f).sum_eq, List.map_cons, List.map_cons, List.sum_cons, List.sum_cons]
  have : 0 ≤ (((l.erase "N2O").erase "CH4").map f).sum := by
    refine List.sum_nonneg ?_
    intro x hx
    obtain ⟨k, hk, rfl⟩ := List.mem_map.1 hx
    have hk' := List.mem_of_mem_erase hk
    exact hf k (List.mem_of_mem_erase hk') (fun e => by subst e; exact absurd hk' (List.Nodup.not_mem_erase hn))
  linarith

/-- The strengths of the components in `C100`: the N2O scale is at most 1.5 times the CH4 scale, none of the others is negative,
and the ozone of the start year is at most 30 DU. -/
structure MethaneScales (sm sn so sw qo qw o0 : ℝ) : Prop where
  n2o : 0 ≤ sn
  ratio : sn ≤ 1.5 * sm
  ozone : 0 ≤ so
  water : 0 ≤ sw
  share : 0 ≤ qw
  forcing : 0 ≤ qo
  first : o0 ≤ 30

theorem nhWeight_range (c : String) : 0 ≤ nhWeight c ∧ 0 ≤ 2 - nhWeight c := by
  unfold nhWeight
  split_ifs <;> constructor <;> norm_num

theorem methane_yearsLe (R : MethaneRuns cops tops i i' p d0 d d1 t g d0' d' d1' t' g' sm sn so sw) {qo qw o0 : ℝ}
    (S : MethaneSetting i i' g d0.nystart qo qw o0) (M : MoreMethane i.concIn.cell i'.concIn.cell d0.nystart d0.nyend)
    (N : MethaneScales sm sn so sw qo qw o0) {ok : ℝ → Prop} (hok : ∀ w, ok w)
    {f f' : ℕ → YearForcing ℝ} {v v' : ℕ → Option (Dict ℝ)} (G : ForcedBy cops d d1 p f v) (G' : ForcedBy cops d' d1' p f' v') :
    YearsLe d d' 0 ok f f' := by
  obtain ⟨hs, h, hh⟩ := R.plain.setting
  obtain ⟨hs', h', hh'⟩ := R.plain'.setting
  have T := R.plain.settled
  have T' := R.plain'.settled
  rw [R.setting.first, R.setting.last] at T'
  have e1 : d.nystart = d0.nystart := by rw [hs]
  have e2 : d.nyend = d0.nyend := by rw [hs]
  have e1' : d'.nystart = d0.nystart := by rw [hs']; exact R.setting.first
  have e2' : d'.nyend = d0.nyend := by rw [hs']; exact R.setting.last
  intro n hn vn vs vn' vs' x1 x2 x3 x4
  have hy1 : d0.nystart ≤ d0.nystart + n := by omega
  have hy2 : d0.nystart + n ≤ d0.nyend := by omega
  obtain ⟨k1, k2, k3, ⟨km, kn⟩, k4⟩ := run_forced R S hy1 hy2
  obtain ⟨sun, s1, s2, s3⟩ := forced_columns G hh R.after (i := i) (by rw [e1, e2]; exact T) (n := n) (by omega)
  obtain ⟨sun', s1', s2', s3'⟩ := forced_columns G' hh' R.after' (i := i') (by rw [e1', e2']; exact T') (n := n) (by omega)
  rw [hs] at s1 x1 x2
  rw [hs'] at s1' x3 x4
  have hsun : sun' = sun := by
    change d0'.sun[n]? = some sun' at s1'
    rw [R.setting.sun] at s1'
    exact (Option.some.inj (s1'.symm.trans s1))
  have hvn : vn' = vn := by
    change d0'.volcN[n]? = some vn' at x3
    rw [R.setting.north] at x3
    exact (Option.some.inj (x3.symm.trans x1))
  have hvs : vs' = vs := by
    change d0'.volcS[n]? = some vs' at x4
    rw [R.setting.south] at x4
    exact (Option.some.inj (x4.symm.trans x2))
  have same : ∀ l : List ℝ, List.Forall₂ (· ≤ ·) l l := fun l => List.forall₂_same.2 fun _ _ => le_rfl
  have hot : ∀ c, c ≠ "CH4" → ∀ y, i'.concIn.cell c y = i.concIn.cell c y := fun c hc y => by rw [R.inputs.others c hc]
  have hme := methane_nonneg (sm := sm) M hot (by linarith [N.n2o, N.ratio]) hy1 hy2
  have hsum := more_methane (sm := sm) (sn := sn) M hot N.n2o N.ratio hy1 hy2
  have hoz := ozone_nonneg (so := so) (qo := qo) (o0 := o0) M N.ozone N.forcing N.first hy1 hy2
  have weigh : ∀ w : ℝ → ℝ, w 1 = 1 → (∀ c, 0 ≤ w (nhWeight c)) →
      ((componentColumns g d0.nystart).map (fun c => (c.2 (d0.nystart + n)).getD 0 * w (columnWeight c.1))).sum ≤
      ((componentColumns g' d0.nystart).map (fun c => (c.2 (d0.nystart + n)).getD 0 * w (columnWeight c.1))).sum := by
    intro w hw hw0
    rw [weighted_columns T hy1 hy2 w hw, weighted_columns T' hy1 hy2 w hw, k1, k2]
    refine add_le_add ?_ (le_of_eq ?_)
    · rw [← sub_nonneg]
      have key : ((g.forcKeys.filter (fun t => t ≠ "Total_forcing")).map
          (fun t => g'.forc t (d0.nystart + n - d0.nystart).toNat * w (nhWeight t))).sum =
          ((g.forcKeys.filter (fun t => t ≠ "Total_forcing")).map
          (fun t => g.forc t (d0.nystart + n - d0.nystart).toNat * w (nhWeight t))).sum +
          ((g.forcKeys.filter (fun t => t ≠ "Total_forcing")).map (fun t =>
            methaneReach sm sn so sw qo qw o0 i.concIn.cell i'.concIn.cell d0.nystart (d0.nystart + n) t * w (nhWeight t))).sum := by
        rw [← List.sum_map_add]
        congr 1
        refine List.map_congr_left ?_
        intro k hk
        obtain ⟨a, b⟩ := List.mem_filter.1 hk
        rw [k4 k a (by simpa using b), add_mul]
      rw [key, add_sub_cancel_left]
      refine sum_reach (T.keys.filter _) (List.mem_filter.2 ⟨km, by decide⟩) (List.mem_filter.2 ⟨kn, by decide⟩) ?_ ?_
      · intro k hk hN
        refine mul_nonneg ?_ (hw0 k)
        unfold methaneReach
        rw [if_neg hN]
        split
        · exact hme
        · split
          · exact mul_nonneg N.water (mul_nonneg N.share hme)
          · split
            · exact hoz
            · exact le_rfl
      · have w1 : nhWeight "CH4" = 1 := by simp [nhWeight]
        have w2 : nhWeight "N2O" = 1 := by simp [nhWeight]
        rw [w1, w2, hw, mul_one, mul_one]
        simpa [methaneReach] using hsum
    · congr 1
      refine List.map_congr_left ?_
      intro c hc
      rw [(k3 c hc).1]
  have p0 : i'.pertForc = i.pertForc := R.inputs.pertForc
  refine ⟨Or.inr rfl, hok _, ?_, ?_, by rw [hvn]; exact same _, by rw [hvs]; exact same _⟩
  · rw [s2, s2', e1, e1', p0, hsun]
    exact add_le_add (add_le_add (weigh (fun x => x) rfl (fun c => (nhWeight_range c).1)) le_rfl) le_rfl
  · rw [s3, s3', e1, e1', p0, hsun]
    exact add_le_add (add_le_add (weigh (fun x => 2 - x) (by norm_num) (fun c => (nhWeight_range c).2)) le_rfl) le_rfl

end

/-- **C100**, two-layer model without a state dependent feedback, with parameters for which no layer loses more heat in a year
than it has: with at least as much prescribed methane in every year (and the same in the start year and in the reference year), no
reported temperature or heat content of any year is lower, although N2O forces less. -/
theorem C100_two_layer {cops : CarbonOps ℝ κ} {i i' : Inputs ℝ} {p : RunPams ℝ} {d0 d d1 d0' d' d1' : Driver ℝ κ}
    {t t' : TwoLayer.Pams ℝ × TwoLayer.State ℝ} {g g' : Handler ℝ κ} {sm sn so sw qo qw o0 : ℝ}
    (R : MethaneRuns cops twoLayerOps i i' p d0 d d1 t g d0' d' d1' t' g' sm sn so sw)
    (S : MethaneSetting i i' g d0.nystart qo qw o0) (M : MoreMethane i.concIn.cell i'.concIn.cell d0.nystart d0.nyend)
    (N : MethaneScales sm sn so sw qo qw o0) {q : TwoLayer.Pams ℝ}
    (hq : twoLayerPams (cutAndCheckPamset twoLayerRequired (p.udm.getD []) []) = .ok q) (hq0 : q.delta_lambda_aero = 0)
    (hsmall : SmallSteps q.mixed q.deep q.k q.ocean_efficacy q.lambda)
    (hf0 : 0 ≤ q.foan + q.foas) (hf2 : q.foan + q.foas ≤ 2) :
    ∀ o ∈ ["dT_glob", "dT_fast", "dT_slow", "OHC_MIXED", "OHC_DEEP", "OHC700", "OHCTOT"],
      ∀ n : ℕ, d0.nystart + n ≤ d0.nyend → EntryLe d1.results d1'.results o n := by
  obtain ⟨hs, -⟩ := R.plain.setting
  obtain ⟨hs', -⟩ := R.plain'.setting
  have e1 : d.nystart = d0.nystart := by rw [hs]
  have e2 : d.nyend = d0.nyend := by rw [hs]
  have e1' : d'.nystart = d0.nystart := by rw [hs']; exact R.setting.first
  have e2' : d'.nyend = d0.nyend := by rw [hs']; exact R.setting.last
  have key := order_two_layer R.ran R.ran' rfl hq hf0 hf2 (by rw [e1, e1']) (by rw [e2, e2']) (by
    intro f f' v v' G G'
    rw [hq0]
    exact methane_yearsLe R S M N (by intro w; rw [mul_zero, add_zero]; exact hsmall) G G')
  rw [e1', e2'] at key
  exact key

/-- **C100**, diffusion model with constant upwelling in the physical range and without a state dependent feedback. -/
theorem C100_diffusion {solve : UDM.Solver ℝ} (hsol : Exact solve) {cops : CarbonOps ℝ κ} {i i' : Inputs ℝ}
    {p : RunPams ℝ} {d0 d d1 d0' d' d1' : Driver ℝ κ} {t t' : UDM.Model ℝ} {g g' : Handler ℝ κ} {sm sn so sw qo qw o0 : ℝ}
    (R : MethaneRuns cops (udmOps solve) i i' p d0 d d1 t g d0' d' d1' t' g' sm sn so sw)
    (S : MethaneSetting i i' g d0.nystart qo qw o0) (M : MoreMethane i.concIn.cell i'.concIn.cell d0.nystart d0.nyend)
    (N : MethaneScales sm sn so sw qo qw o0) {q : UDM.Pams ℝ}
    (hq : udmPams (cutAndCheckPamset udmRequired (p.udm.getD []) []) = .ok q) (hph : Physical q) (hth : q.threstemp = 0)
    (ho : Ordered q q.W) (hg : Gentle q q.W) (hn1 : q.foan ≤ 1) (hs1 : q.foas ≤ 1) (h700 : q.mixed ≤ 700)
    (hq0 : q.delta_lambda_aero = 0) (hfb : 0 < q.lambda) :
    ∀ o ∈ ["dT_glob", "dT_NH", "dT_SH", "dT_glob_air", "dT_NH_air", "dT_SH_air", "dT_glob_sea", "dT_NH_sea", "dT_SHsea",
        "OHC700", "OHCTOT"],
      ∀ n : ℕ, d0.nystart + n ≤ d0.nyend → EntryLe d1.results d1'.results o n := by
  obtain ⟨hs, -⟩ := R.plain.setting
  obtain ⟨hs', -⟩ := R.plain'.setting
  have e1 : d.nystart = d0.nystart := by rw [hs]
  have e2 : d.nyend = d0.nyend := by rw [hs]
  have e1' : d'.nystart = d0.nystart := by rw [hs']; exact R.setting.first
  have e2' : d'.nyend = d0.nyend := by rw [hs']; exact R.setting.last
  have key := order_diffusion hsol R.ran R.ran' rfl hq hph hth ho hg hn1 hs1 h700 (by rw [e1, e1']) (by rw [e2, e2']) (by
    intro f f' v v' G G'
    rw [hq0]
    exact methane_yearsLe R S M N (by intro w; simpa [feedback, hq0] using hfb) G G')
  rw [e1', e2'] at key
  exact key

/-! ## The hypotheses are met -/

section
open Verif.Exec Verif.Lemmas.Tridiag Verif.Model.CarbonInst

/-- The third of three runs in a row with growing methane. -/
theorem methane_case (s : ℝ) : ∃ h0 d d1 t g, construct irOps (methaneInputs s) richPam none = .ok h0 ∧
    After irOps twoLayerOps (richDriver h0) (richRuns.take 2) d ∧
    run irOps twoLayerOps d ⟨none, none, some [("beta_f", .flt 1)]⟩ = .ok (d1, t) ∧ d1.source = .handler g := by
  obtain ⟨h1, h2, h3, h4, h5⟩ := rich_pams
  obtain ⟨h0, hc, h⟩ := C63_default (carb := none) yearLaw_real (i := methaneInputs s) rich_gases (methane_complete s) h1 h2 h3 h4
    (by decide) (.absent (by decide)) (by simp)
  obtain ⟨d1, hd⟩ := h (richDriver h0) (richRuns.take 2 ++ [⟨none, none, some [("beta_f", .flt 1)]⟩]) rfl rfl rfl
    (rich_series h0) (by
    intro p hp
    simp only [richRuns, List.take, List.cons_append, List.nil_append, List.mem_cons, List.not_mem_nil, or_false] at hp
    rcases hp with rfl | rfl | rfl
    · exact ⟨h5, .absent (by decide), by simp⟩
    · exact ⟨rfl, .absent (by simp [Dict.keys]), by simp⟩
    · refine ⟨h5, .absent (by decide), ?_⟩
      intro q hq
      simp only [Option.some.injEq] at hq
      subst hq
      intro key hk
      simp only [Dict.keys, List.map_cons, List.map_nil, List.mem_cons, List.not_mem_nil, or_false] at hk
      subst hk
      exact ⟨by decide, by decide, by decide⟩)
  obtain ⟨d, t, ha, hr⟩ := after_snoc hd
  obtain ⟨h, hd, -⟩ := after_spec yearLaw_real (rfl : (richDriver h0).source = .handler h0) ha (fun _ => True)
      trivial (fun _ _ _ _ _ _ _ => trivial) (fun _ _ _ _ _ _ => trivial)
  obtain ⟨g0, g, -, hg, -⟩ := run_handler_spec hd hr
  exact ⟨h0, d, d1, t, g, hc, ha, hr, hg⟩

/-- A run with the diffusion model with growing methane. -/
theorem methane_diffusion (s : ℝ) : ∃ h0 d1 t, construct irOps (methaneInputs s) richPam none = .ok h0 ∧
    run irOps (udmOps exactSolver) (richDriver h0) ⟨some flatSet, none, none⟩ = .ok (d1, t) := by
  obtain ⟨h1, h2, h3, h4, h5⟩ := rich_pams
  obtain ⟨h0, hc, h⟩ := C63_diffusion exactSolver_exact (carb := none) (i := methaneInputs s) rich_gases (methane_complete s) h1 h2 h3
    h4 (by decide) (.absent (by decide)) (by simp)
  obtain ⟨d1, hd⟩ := h (richDriver h0) ([] ++ [⟨some flatSet, none, none⟩]) rfl rfl rfl
    (rich_series h0) (by
    intro p hp
    simp only [List.nil_append, List.mem_singleton] at hp
    subst hp
    exact ⟨⟨_, flat_set, flat_safe⟩, h5, .absent (by decide), by simp⟩)
  obtain ⟨d, t, ha, hr⟩ := after_snoc hd
  have := after_nil ha
  subst this
  exact ⟨h0, d1, t, hc, hr⟩

theorem methane_runs {tops : ThermalOps ℝ τ} {s s' : ℝ} {h0 h0' : Handler ℝ (IR ℝ)} {ps : List (RunPams ℝ)} {p : RunPams ℝ}
    {d d1 d' d1' : Driver ℝ (IR ℝ)} {t t' : τ} {g g' : Handler ℝ (IR ℝ)}
    (hc : construct irOps (methaneInputs s) richPam none = .ok h0) (hc' : construct irOps (methaneInputs s') richPam none = .ok h0')
    (ha : After irOps tops (richDriver h0) ps d) (hr : run irOps tops d p = .ok (d1, t)) (hg : d1.source = .handler g)
    (ha' : After irOps tops (richDriver h0') ps d') (hr' : run irOps tops d' p = .ok (d1', t')) (hg' : d1'.source = .handler g')
    (hj : NoJustOne richPam ps p) : MethaneRuns irOps tops (methaneInputs s) (methaneInputs s') p (richDriver h0) d d1 t g
      (richDriver h0') d' d1' t' g' 1 1 1 1 where
  inputs := methane_only s s'
  once := rich_gases.once
  notTotal := rich_gases.notTotal
  notDirect := by simp [methaneInputs, richInputs, richGas, Dict.keys]
  gases := by
    intro k x hx hu
    have := rich_conc ⟨x, hx, hu⟩
    simp only [List.mem_cons, List.not_mem_nil, or_false] at this
    rcases this with rfl | rfl | rfl | rfl <;> simp [nhWeight]
  rows := methane_rows s
  cols := by simp [methaneInputs]
  setting := sulfur_setting h0 h0'
  ran := hr
  ran' := hr'
  after := hg
  after' := hg'
  history := by
    obtain ⟨p1, p2, p3, -⟩ := rich_pams
    exact ⟨richPam, none, 2000, ps, h0, h0', (methane_complete s).run p1 p2 p3, hc, hc', rfl, rfl, ha, ha', hj⟩

/-- The default parameters, the methane of 1998 and 2010, and less than 30 DU of ozone in 1998. -/
theorem methane_setting {tops : ThermalOps ℝ τ} {s s' : ℝ} {h0 h0' : Handler ℝ (IR ℝ)} {p : RunPams ℝ}
    {d d1 d' d1' : Driver ℝ (IR ℝ)} {t t' : τ} {g g' : Handler ℝ (IR ℝ)} (hp : p.emiconc = none)
    (R : MethaneRuns irOps tops (methaneInputs s) (methaneInputs s') p (richDriver h0) d d1 t g (richDriver h0') d' d1' t' g' 1 1 1 1) :
    ∃ o0, MethaneSetting (methaneInputs s) (methaneInputs s') g 1998 0.5 0.091915 o0 ∧ o0 ≤ 30 := by
  obtain ⟨pamset, carb, es, ps, h0, h0', ht, hc, -, hd0, -, ha, -, -⟩ := R.history
  obtain ⟨h, hd, -⟩ := after_spec yearLaw_real hd0 ha (fun _ => True)
      trivial (fun _ _ _ _ _ _ _ => trivial) (fun _ _ _ _ _ _ => trivial)
  obtain ⟨g0, g1, hre, hg1, hs, -⟩ := run_handler_spec hd R.ran
  rw [R.after, Source.handler.injEq] at hg1
  subst hg1
  rw [hp] at hre
  have pam : ∀ k v, k ∉ globalAerosols.map Prod.snd → k ∉ pamsCantChange → (Factory.checkPamset (F := ℝ) none).get? k = some v →
      g.pam.get? k = some v := by
    intro k v a b e
    obtain ⟨pam, c, h1, -, rfl⟩ := reset_spec hre
    rw [hs.pam]
    simp only
    rw [avoid_get? _ _ _ a, consistency_get? h1, if_neg b, e]
    rfl
  have href : pamI g.pam "ref_yr" = .ok 2010 := by
    unfold pamI Dict.getE
    rw [pam "ref_yr" (.int 2010) (by decide) (by decide) rfl]
    rfl
  have hn : g.gas.keys.Nodup := by
    obtain ⟨emis', cl, br, he, ht2, hpre, hcg, -⟩ := constructed hc ht
    obtain ⟨-, -, -, q4⟩ := run_keys (pamset := pamset) (carb := carb) hcg hd0 ha R.ran R.after
    rw [q4]
    exact R.once
  have hx : (methaneInputs s).gas.get? "TROP_O3" = some ⟨"-", 0, 0, 0, 0, 0, 0, 1⟩ := rfl
  have hyr : Yearly (methaneInputs s).gas "TROP_O3" := ⟨_, hx, Or.inl rfl, by decide, by decide⟩
  obtain ⟨emis, ref, m0, e1, e2, e3, e4⟩ := C59_run_ozone (y := 1998) R.once R.notTotal ht hc hd0 ha R.ran R.after le_rfl
    (by simp [richDriver]) hyr hx rfl
  rw [href, Except.ok.injEq] at e2
  subst e2
  have hem : (methaneInputs s).emis = emis := by
    have : perturbedEmis (methaneInputs s) = .ok (methaneInputs s).emis := rfl
    rw [this, Except.ok.injEq] at e1
    exact e1
  have hm0 : m0 = 315 := by
    rw [frame_at'_eq_ok] at e3
    rw [← e3.2.2]
    norm_num [methaneInputs]
  obtain ⟨D, hD⟩ := observed_exists g (methaneInputs s) emis 0 1998 1998 hn
  obtain ⟨c, c1, c2, c3⟩ := e4 D 0 hD
  refine ⟨D.ozoneConc 2010 m0, ⟨by simp [methaneInputs], ?_, ?_, ?_, ?_⟩, ?_⟩
  · intro ref hr
    rw [href, Except.ok.injEq] at hr
    subst hr
    simp [methaneInputs]
  · unfold pamF Dict.getE
    rw [pam "qo3" (.flt 0.5) (by decide) (by decide) rfl]
    rfl
  · unfold pamF Dict.getE
    rw [pam "qh2o_ch4" (.flt 0.091915) (by decide) (by decide) rfl]
    rfl
  · intro c' c1' c2'
    have nd : ((reportConc g).map Prod.fst).Nodup := by rw [report_names]; exact hn.filter _
    have a := lookup_col nd c1
    have b := lookup_col nd c1'
    rw [c2] at a
    rw [c2', a, Option.some.injEq] at b
    rw [← b, c3]
  · have em : ∀ k ∈ ["NOx", "CO", "NMVOC"], ∀ z : ℤ, 1995 ≤ z → z < 2012 → D.emis k z = ((z - 1990 : ℤ) : ℝ) := by
      intro k hk z z1 z2
      refine hD.emis k z _ ?_
      rw [frame_at'_eq_ok, ← hem]
      refine ⟨?_, ?_, rfl⟩
      · simp only [List.mem_cons, List.not_mem_nil, or_false] at hk
        rcases hk with rfl | rfl | rfl <;> simp [methaneInputs, richInputs]
      · simp only [methaneInputs, richInputs, mem_pyRange]; omega
    have hch : D.conc "CH4" 1998 = 303 := by
      have hk : "CH4" ∈ (reportConc g).map Prod.fst := by
        obtain ⟨emis', cl, br, he, ht2, hpre, hcg, -⟩ := constructed hc ht
        obtain ⟨q1, -, -, q4⟩ := run_keys (pamset := pamset) (carb := carb) hcg hd0 ha R.ran R.after
        obtain ⟨hvg, -, hsp⟩ := mem_spicy hpre
        have : "CH4" ∉ h0.prec.gases := by
          intro h
          obtain ⟨x, -, -, -, n2, -⟩ := (mem_vanilla R.once hvg _).1 h
          exact n2 rfl
        rw [report_names, q4, q1]
        refine List.mem_filter.2 ⟨(get?_isSome_iff _ _).1 ⟨_, (rfl : (methaneInputs s).gas.get? "CH4" = some _)⟩, ?_⟩
        simp only [decide_eq_true_eq]
        refine Or.inl (List.mem_filter.2 ⟨?_, ?_⟩)
        · rw [hsp]
          refine List.mem_filter.2 ⟨(get?_isSome_iff _ _).1 ⟨_, (rfl : (methaneInputs s).gas.get? "CH4" = some _)⟩, ?_⟩
          simp [this]
        · have : gasOr (methaneInputs s).gas "CH4" = ⟨"ppb", 1, 2, 10, 120, 160, 0, 1⟩ := rfl
          rw [this]
          simp
      obtain ⟨c, hcm, e⟩ := List.mem_map.1 hk
      have v := conc_reported yearLaw_real ht hc hd0 ha R.ran R.after (show (richDriver h0).nystart ≤ 1998 from le_rfl)
        (by simp [richDriver]) (Or.inl rfl) hcm (Or.inl rfl) (by rw [e]; decide)
      have := hD.conc c hcm _ _ v
      rw [e] at this
      rw [this]
      norm_num [methaneInputs]
    unfold ForcingData.ozoneConc
    rw [hD.year, hch, hm0, em "NOx" (by simp) _ (by decide) (by decide), em "NOx" (by simp) _ (by decide) (by decide),
      em "CO" (by simp) _ (by decide) (by decide), em "CO" (by simp) _ (by decide) (by decide),
      em "NMVOC" (by simp) _ (by decide) (by decide), em "NMVOC" (by simp) _ (by decide) (by decide)]
    have : Real.log 303 ≤ Real.log 315 := Real.log_le_log (by norm_num) (by norm_num)
    norm_num
    linarith

theorem methane_scales {o0 : ℝ} (h : o0 ≤ 30) : MethaneScales 1 1 1 1 0.5 0.091915 o0 :=
  ⟨by norm_num, by norm_num, by norm_num, by norm_num, by norm_num, by norm_num, h⟩

/-- Methane growing by 3 ppb more per year, third run in a row: the reported forcings of 2003 and the warming. -/
example : ∃ (d1 d1' : Driver ℝ (IR ℝ)) (g g' : Handler ℝ (IR ℝ)) (o0 : ℝ), o0 ≤ 30 ∧ d1.source = .handler g ∧
    d1'.source = .handler g' ∧
    List.Forall₂ (fun c c' => c'.1 = c.1 ∧ (c.1 ≠ "Total_forcing" → ∃ v, c.2 2003 = some v ∧
      c'.2 2003 = some (v + methaneReach 1 1 1 1 0.5 0.091915 o0 (methaneInputs 0).concIn.cell (methaneInputs 3).concIn.cell 1998 2003
        c.1))) (reportForcing g 1998) (reportForcing g' 1998) ∧ EntryLe d1.results d1'.results "dT_glob" 5 := by
  obtain ⟨h0, d, d1, t, g, hc, ha, hr, hg⟩ := methane_case 0
  obtain ⟨h0', d', d1', t', g', hc', ha', hr', hg'⟩ := methane_case 3
  have hj : NoJustOne richPam (richRuns.take 2) ⟨none, none, some [("beta_f", .flt 1)]⟩ := by
    refine ⟨by decide, ?_⟩
    intro q hq
    simp only [richRuns, List.take, List.cons_append, List.nil_append, List.mem_cons, List.not_mem_nil, or_false] at hq
    rcases hq with rfl | rfl | rfl <;> simp [Dict.keys]
  have R := methane_runs hc hc' ha hr hg ha' hr' hg' hj
  obtain ⟨o0, S, ho⟩ := methane_setting rfl R
  refine ⟨d1, d1', g, g', o0, ho, hg, hg', C100_forcing R S twoLayer_names (y := 2003) (by simp [richDriver]) (by simp [richDriver]), ?_⟩
  exact C100_two_layer R S methane_more (methane_scales ho)
    (show twoLayerPams (cutAndCheckPamset (twoLayerRequired (F := ℝ)) [] []) = .ok TwoLayer.Pams.default by
      have e : twoLayerPams (cutAndCheckPamset (twoLayerRequired (F := ℝ)) [] []) =
        .ok ⟨3.74 / 3.0, ofInt 50, ofInt 1200, 0.5, ofInt 1, 0.61, 0.81, 0.0⟩ := rfl
      rw [e]
      norm_num [TwoLayer.Pams.default])
    (by norm_num [TwoLayer.Pams.default]) (by constructor <;> norm_num [TwoLayer.Pams.default])
    (by norm_num [TwoLayer.Pams.default]) (by norm_num [TwoLayer.Pams.default]) "dT_glob" (by simp) 5 (by simp [richDriver])

/-- The same with the diffusion model. -/
example : ∃ (d1 d1' : Driver ℝ (IR ℝ)) (t t' : UDM.Model ℝ) (h0 h0' : Handler ℝ (IR ℝ)),
    run irOps (udmOps exactSolver) (richDriver h0) ⟨some flatSet, none, none⟩ = .ok (d1, t) ∧
    run irOps (udmOps exactSolver) (richDriver h0') ⟨some flatSet, none, none⟩ = .ok (d1', t') ∧
    EntryLe d1.results d1'.results "dT_SH_air" 4 := by
  obtain ⟨h0, d1, t, hc, hr⟩ := methane_diffusion 0
  obtain ⟨h0', d1', t', hc', hr'⟩ := methane_diffusion 3
  obtain ⟨-, g, -, hg, -⟩ := run_handler_spec (rfl : (richDriver h0).source = .handler h0) hr
  obtain ⟨-, g', -, hg', -⟩ := run_handler_spec (rfl : (richDriver h0').source = .handler h0') hr'
  have hj : NoJustOne richPam [] ⟨some flatSet, none, none⟩ := by
    refine ⟨by decide, ?_⟩
    intro q hq
    simp only [List.nil_append, List.mem_singleton] at hq
    subst hq
    simp [Dict.keys]
  have R := methane_runs hc hc' .fresh hr hg .fresh hr' hg' hj
  obtain ⟨o0, S, ho⟩ := methane_setting rfl R
  exact ⟨d1, d1', t, t', h0, h0', hr, hr', C100_diffusion exactSolver_exact R S methane_more (methane_scales ho) flat_set
    C35.flat_physical rfl C35.flat_ordered C35.flat_gentle
    (by simp only [C35.flatPams]; norm_num) (by simp only [C35.flatPams]; norm_num) (by simp only [C35.flatPams]; norm_num)
    (by simp only [C35.flatPams]) (by simp only [C35.flatPams]; norm_num) "dT_SH_air" (by simp) 4 (by simp [richDriver])⟩

end

end Verif.Props
