import Verif.Props.C81

/-!
# C81 — energy budget and bounds in the reported series

The closed heat budget of the two-layer model (C29) in the columns of the results of a run, and the temperature bound of
the diffusion model (C78) for runs driven by a forcing array.
-/

namespace Verif.Props
open Verif.Py Verif.Py.Dict Verif.Model Verif.Model.Handler Verif.Model.Driver Verif.Model.ThermalInst Verif.Spec
open Verif.Lemmas.UDM (sci0 sci1 sci2)

/-- The value a series reports for the year before the `i`-th; zero before the first. -/
noncomputable def prior (r : Dict (List ℝ)) (o : String) (i : ℕ) : ℝ :=
  if i = 0 then 0 else (entry r o (i - 1)).getD 0

/-- The energy budget of the `i`-th year in the results `r` of a run with the two-layer model: forcing `F`, feedback
`lam`. The heat content grows by the imbalance at the temperatures reported for the year before, `RIB_glob` is the
imbalance at the temperatures reported for this year, `dT_glob` weighs land (in equilibrium) and ocean. -/
structure TwoLayerBudget (q : TwoLayer.Pams ℝ) (r : Dict (List ℝ)) (i : ℕ) (F lam : ℝ) : Prop where
  heat : ∃ a, entry r "OHCTOT" i = some a ∧ a - prior r "OHCTOT" i =
    imbalance q F lam (prior r "dT_fast" i) (prior r "dT_slow" i) * yearOceanHeat
  layers : ∃ a b, entry r "OHC_MIXED" i = some a ∧ entry r "OHC_DEEP" i = some b ∧ entry r "OHCTOT" i = some (a + b)
  surface : ∃ x z, entry r "dT_fast" i = some x ∧ entry r "dT_slow" i = some z ∧
    entry r "RIB_glob" i = some (imbalance q F lam x z) ∧
    entry r "dT_glob" i = some (F / lam * (1 - (q.foan + q.foas) / 2) + x * ((q.foan + q.foas) / 2))

theorem mean_zip {a b : List ℝ} (h : a.length = b.length) :
    TwoLayer.mean (List.zipWith (· + ·) a b) = Driver.mean a + Driver.mean b := by
  unfold TwoLayer.mean Driver.mean
  rw [fsum_eq_sum, fsum_eq_sum, fsum_eq_sum, List.length_zipWith, ← h, min_self]
  have key : ∀ {a b : List ℝ}, a.length = b.length → (List.zipWith (· + ·) a b).sum = a.sum + b.sum := by
    intro a
    induction a with
    | nil => intro b hb; simp at hb; simp [List.eq_nil_of_length_eq_zero hb.symm]
    | cons x a ih =>
      intro b hb
      cases b with
      | nil => simp at hb
      | cons z b =>
        rw [List.zipWith_cons_cons, List.sum_cons, ih (by simpa using hb), List.sum_cons, List.sum_cons]
        ring
  rw [key h, add_div]

/-- The yearly states and reported values of a run with the two-layer model give the budget in every year. -/
theorem two_layer_budget {r : Dict (List ℝ)} {q : TwoLayer.Pams ℝ} (hm : q.mixed ≠ 0) (hdp : q.deep ≠ 0) {ns ne : ℤ}
    {st : ℤ → TwoLayer.Pams ℝ × TwoLayer.State ℝ} {w nh sh : ℤ → ℝ} {vn vs : ℤ → List ℝ} {vals : ℤ → Dict ℝ}
    (h0 : st ns = (q, TwoLayer.init q))
    (h : ∀ y, ns ≤ y → y ≤ ne → (twoLayerOps (F := ℝ)).budget ((twoLayerOps (F := ℝ)).setFeedback (st y) (w y)) (nh y) (sh y)
      (vn y) (vs y) = .ok (vals y, st (y + 1)) ∧
      ∀ o ∈ (twoLayerOps (F := ℝ)).outputs, entry r o.1 (y - ns).toNat = (vals y).get? o.2)
    {y : ℤ} (h1 : ns ≤ y) (h2 : y ≤ ne) :
    TwoLayerBudget q r (y - ns).toNat ((nh y + sh y) / 2 + (Driver.mean (vn y) + Driver.mean (vs y)))
      (q.lambda + w y * q.delta_lambda_aero) := by
  have step : ∀ y, ns ≤ y → y ≤ ne → (vn y).length = (vs y).length ∧
      vals y = outDict (TwoLayer.energyBudget (st y).1 (TwoLayer.setFeedback (st y).1 (st y).2 (w y)) (nh y) (sh y) (vn y)
        (vs y)).2 ∧
      st (y + 1) = ((st y).1, (TwoLayer.energyBudget (st y).1 (TwoLayer.setFeedback (st y).1 (st y).2 (w y)) (nh y) (sh y)
        (vn y) (vs y)).1) := by
    intro y a b
    have e := (h y a b).1
    simp only [twoLayerOps] at e
    split at e
    · rename_i hl
      rw [Except.ok.injEq, Prod.mk.injEq] at e
      exact ⟨hl, e.1.symm, e.2.symm⟩
    · cases e
  have hq : ∀ n : ℕ, ns + n ≤ ne + 1 → (st (ns + n)).1 = q := by
    intro n
    induction n with
    | zero => intro _; simp [h0]
    | succ n ih =>
      intro hn
      have := (step (ns + n) (by omega) (by omega)).2.2
      rw [show ns + ((n + 1 : ℕ) : ℤ) = ns + n + 1 by push_cast; ring, this]
      exact ih (by omega)
  have hqy : ∀ y, ns ≤ y → y ≤ ne + 1 → (st y).1 = q := by
    intro y a b
    have := hq (y - ns).toNat (by omega)
    rwa [show ns + ((y - ns).toNat : ℤ) = y by omega] at this
  have hent : ∀ y, ns ≤ y → y ≤ ne → ∀ o ∈ twoLayerOutputs, entry r o.1 (y - ns).toNat =
      (outDict (TwoLayer.energyBudget q (TwoLayer.setFeedback q (st y).2 (w y)) (nh y) (sh y) (vn y) (vs y)).2).get? o.2 := by
    intro y a b o ho
    rw [(h y a b).2 o ho, (step y a b).2.1, hqy y a (by omega)]
  have hprior : prior r "dT_fast" (y - ns).toNat = (st y).2.temp_fast ∧ prior r "dT_slow" (y - ns).toNat = (st y).2.temp_slow ∧
      prior r "OHCTOT" (y - ns).toNat = heatContent q (st y).2.temp_fast (st y).2.temp_slow := by
    by_cases hy : y = ns
    · subst hy
      have e1 : (TwoLayer.init q).temp_fast = 0 := sci0
      have e2 : (TwoLayer.init q).temp_slow = 0 := sci0
      simp only [prior, sub_self, Int.toNat_zero, if_true, h0, e1, e2, heatContent]
      norm_num
    · have e := hent (y - 1) (by omega) (by omega)
      have es := (step (y - 1) (by omega) (by omega)).2.2
      rw [sub_add_cancel, hqy (y - 1) (by omega) (by omega)] at es
      unfold prior
      rw [if_neg (by omega), if_neg (by omega), if_neg (by omega),
        show (y - ns).toNat - 1 = (y - 1 - ns).toNat by omega,
        e ("dT_fast", "dtemp_fast") (by simp [twoLayerOutputs]), e ("dT_slow", "dtemp_slow") (by simp [twoLayerOutputs]),
        e ("OHCTOT", "OHCTOT") (by simp [twoLayerOutputs]), es]
      refine ⟨rfl, rfl, ?_⟩
      exact (C29_reported_heat q _ _ _ _ _).1
  have e := hent y h1 h2
  have hF : TwoLayer.forcing (nh y) (sh y) (vn y) (vs y) =
      (nh y + sh y) / 2 + (Driver.mean (vn y) + Driver.mean (vs y)) := by
    unfold TwoLayer.forcing
    rw [mean_zip (step y h1 h2).1, sci2]
  set lam := q.lambda + w y * q.delta_lambda_aero with hlam
  set o := (TwoLayer.energyBudget q (TwoLayer.setFeedback q (st y).2 (w y)) (nh y) (sh y) (vn y) (vs y)).2 with ho
  have hb := C29_one_year q hm hdp (TwoLayer.setFeedback q (st y).2 (w y)) (nh y) (sh y) (vn y) (vs y)
  simp only at hb
  rw [← ho, hF] at hb
  refine ⟨⟨o.OHCTOT, e ("OHCTOT", "OHCTOT") (by simp [twoLayerOutputs]), ?_⟩,
    ⟨o.OHC_MIXED, o.OHC_DEEP, e ("OHC_MIXED", "OHC_MIXED") (by simp [twoLayerOutputs]),
      e ("OHC_DEEP", "OHC_DEEP") (by simp [twoLayerOutputs]), ?_⟩,
    ⟨o.dtemp_fast, o.dtemp_slow, e ("dT_fast", "dtemp_fast") (by simp [twoLayerOutputs]),
      e ("dT_slow", "dtemp_slow") (by simp [twoLayerOutputs]), ?_, ?_⟩⟩
  · rw [hprior.1, hprior.2.1, hprior.2.2]
    exact hb
  · rw [e ("OHCTOT", "OHCTOT") (by simp [twoLayerOutputs])]
    rfl
  · rw [e ("RIB_glob", "RIB") (by simp [twoLayerOutputs])]
    show some o.RIB = _
    rw [← hF, ho]
    simp only [TwoLayer.energyBudget, TwoLayer.output, TwoLayer.step, TwoLayer.setFeedback, imbalance, sci1]
    rfl
  · rw [e ("dT_glob", "dtemp") (by simp [twoLayerOutputs])]
    show some o.dtemp = _
    rw [← hF, ho]
    simp only [TwoLayer.energyBudget, TwoLayer.output, TwoLayer.step, TwoLayer.setFeedback, sci1, sci2]
    rw [mul_div_assoc]

/-- The trace of a run with a handler, with the hemispheric forcings averaging to the total plus the solar forcing. -/
theorem emission_trace {κ τ : Type} {cops : CarbonOps ℝ κ} {tops : ThermalOps ℝ τ} {d0 d d1 : Driver ℝ κ}
    {i : Inputs ℝ} {pamset carb : Option (Dict (PyVal ℝ))} {h0 g : Handler ℝ κ} {es : ℤ}
    {ps : List (RunPams ℝ)} {p : RunPams ℝ} {t : τ} (hgas : i.gas.keys.Nodup) (hTg : "Total_forcing" ∉ i.gas.keys)
    (ht : RunTables i.concIn i.emis (Dict.set (Factory.checkPamset pamset) "conc_run" (.bool i.concRun))
      d0.nystart es d0.nyend)
    (hc : construct cops i pamset carb = .ok h0) (hd0 : d0.source = .handler h0)
    (ha : After cops tops d0 ps d) (hr : run cops tops d p = .ok (d1, t)) (hg : d1.source = .handler g)
    (hj : NoJustOne pamset ps p) :
    ∃ tr, Trace cops tops d p d1 t tr ∧ d = { d0 with source := d.source, results := d.results } ∧
      ∀ y, d0.nystart ≤ y → y ≤ d0.nyend → ∃ a b c luc sun r values vn vs,
        HandlerYear cops tops d (tr y) (tr (y + 1)) a b c y luc sun r values vn vs ∧ (r.nh + r.sh) / 2 = r.tot + sun := by
  obtain ⟨h, emis, tr, H, hd, hsame, htr, hreset, hH, hyr⟩ := run_years yearLaw_real ht hc hd0 ha hr hg
  refine ⟨tr, htr, hsame, fun y hy1 hy2 => ?_⟩
  obtain ⟨b, luc, sun, r, values, vn, vs, Y, HY, hluc, hsun⟩ := hyr y hy1 hy2
  obtain ⟨k1, k2, k3, k4, k5, k6, k7⟩ := run_forcing hgas hTg ht hc Y hy1 hy2
  have hjust : b.pam.get? "just_one" = none := by
    obtain ⟨h', hd', -, kept, -⟩ := after_spec yearLaw_real hd0 ha (fun _ => True) trivial
      (fun _ _ _ _ _ _ _ => trivial) (fun _ _ _ _ _ _ => trivial)
    rw [hd, Source.handler.injEq] at hd'
    subst hd'
    have kept' : Kept True h0 h :=
      { kept with just := fun _ => kept.just (fun q hq => hj.2 q (List.mem_append_left _ hq)) }
    have k := (kept'.reset yearLaw_real hreset
      (fun _ => hj.2 p (List.mem_append_right _ (List.mem_singleton.2 rfl)))).just trivial
    obtain ⟨ns1, ne1, emis', clbr, prec, pre, k0, k', c1, c2, c3, c4, c5, c6, c7, c8, rfl⟩ := construct_spec hc
    have h0j : (avoidRegionalDoubleCounting i.gas.keys
        (Dict.set (Factory.checkPamset pamset) "conc_run" (.bool i.concRun))).get? "just_one" = none := by
      rw [avoid_get? _ _ _ (by decide), Dict.get?_set, if_neg (by decide), get?_eq_none_iff,
        mem_keys_checkPamset, not_or]
      refine ⟨?_, fun ⟨_, x⟩ => hj.1 x⟩
      unfold Factory.checkPamset cutAndCheckPamset
      rw [mem_keys_checkNumeric, mem_keys_cut]
      simp [Factory.handlerRequired, Dict.keys, Dict.has, Dict.get?, Dict.set]
    have hb : b.pam = (H d0.nystart).pam := by
      obtain ⟨g0, g', hre, hg', hs, -, -⟩ := run_handler_spec hd hr
      rw [hreset, Except.ok.injEq] at hre
      rw [hg, Source.handler.injEq] at hg'
      rw [hre, ← hs.pam, ← hg', Y.sameG.pam, Y.sameC.pam]
    rw [hb, k]
    exact h0j
  obtain ⟨t1, -, t3, t4⟩ := C06_total Y.forc k5 k1 k2 k3 k4 hjust
  exact ⟨_, b, _, luc, sun, r, values, vn, vs, HY, t4⟩

theorem two_layer_created {pm : Option (Dict (PyVal ℝ))} {t : TwoLayer.Pams ℝ × TwoLayer.State ℝ}
    (h : (twoLayerOps (F := ℝ)).create pm = .ok t) :
    twoLayerPams (cutAndCheckPamset twoLayerRequired (pm.getD []) []) = .ok t.1 ∧ t = (t.1, TwoLayer.init t.1) := by
  have h' : twoLayerCreate pm = .ok t := h
  unfold twoLayerCreate at h'
  rw [bind_eq_ok] at h'
  obtain ⟨q, h1, h2⟩ := h'
  rw [pure_ok, Except.ok.injEq] at h2
  subst h2
  exact ⟨h1, rfl⟩

/-- **C81**, energy budget of emission and concentration runs. In every year of every run with the two-layer model (any
history, any parameters without `just_one`) the reported temperatures, imbalance and heat contents close the energy
budget with the forcing the run reports: total plus solar plus volcanic (north and south). -/
theorem C81_emission_budget {κ : Type} {cops : CarbonOps ℝ κ} {d0 d d1 : Driver ℝ κ}
    {i : Inputs ℝ} {pamset carb : Option (Dict (PyVal ℝ))} {h0 g : Handler ℝ κ} {es : ℤ}
    {ps : List (RunPams ℝ)} {p : RunPams ℝ} {t : TwoLayer.Pams ℝ × TwoLayer.State ℝ} (hgas : i.gas.keys.Nodup)
    (hTg : "Total_forcing" ∉ i.gas.keys)
    (ht : RunTables i.concIn i.emis (Dict.set (Factory.checkPamset pamset) "conc_run" (.bool i.concRun))
      d0.nystart es d0.nyend)
    (hc : construct cops i pamset carb = .ok h0) (hd0 : d0.source = .handler h0)
    (ha : After cops twoLayerOps d0 ps d) (hr : run cops twoLayerOps d p = .ok (d1, t)) (hg : d1.source = .handler g)
    (hj : NoJustOne pamset ps p) :
    ∃ q, twoLayerPams (cutAndCheckPamset twoLayerRequired (p.udm.getD []) []) = .ok q ∧
      (q.mixed ≠ 0 → q.deep ≠ 0 → ∀ y, d0.nystart ≤ y → y ≤ d0.nyend → ∃ T S VN VS w,
        entry d1.results "Total_forcing" (y - d0.nystart).toNat = some T ∧
        entry d1.results "Solar_forcing" (y - d0.nystart).toNat = some S ∧
        entry d1.results "Volcanic_forcing_NH" (y - d0.nystart).toNat = some VN ∧
        entry d1.results "Volcanic_forcing_SH" (y - d0.nystart).toNat = some VS ∧
        TwoLayerBudget q d1.results (y - d0.nystart).toNat (T + S + VN + VS) (q.lambda + w * q.delta_lambda_aero)) := by
  obtain ⟨tr, htr, hsame, hyr⟩ := emission_trace hgas hTg ht hc hd0 ha hr hg hj
  have hns : d.nystart = d0.nystart := by rw [hsame]
  have hne : d.nyend = d0.nyend := by rw [hsame]
  obtain ⟨-, hcr, -⟩ := startRun_spec htr.start
  obtain ⟨hq, hinit⟩ := two_layer_created hcr
  refine ⟨_, hq, fun hm hdp y hy1 hy2 => ?_⟩
  have hex : ∀ y, ∃ w nh sh vn vs vals, d0.nystart ≤ y → y ≤ d0.nyend →
      ((twoLayerOps (F := ℝ)).budget ((twoLayerOps (F := ℝ)).setFeedback (tr y).thermal w) nh sh vn vs =
          .ok (vals, (tr (y + 1)).thermal) ∧
        ∀ o ∈ (twoLayerOps (F := ℝ)).outputs, entry d1.results o.1 (y - d0.nystart).toNat = vals.get? o.2) ∧
      ∃ T S, entry d1.results "Total_forcing" (y - d0.nystart).toNat = some T ∧
        entry d1.results "Solar_forcing" (y - d0.nystart).toNat = some S ∧
        entry d1.results "Volcanic_forcing_NH" (y - d0.nystart).toNat = some (Driver.mean vn) ∧
        entry d1.results "Volcanic_forcing_SH" (y - d0.nystart).toNat = some (Driver.mean vs) ∧ (nh + sh) / 2 = T + S := by
    intro y
    by_cases hy : d0.nystart ≤ y ∧ y ≤ d0.nyend
    · obtain ⟨a, b, c, luc, sun, r, values, vn, vs, HY, hmean⟩ := hyr y hy.1 hy.2
      refine ⟨r.wAero, r.nh, r.sh, vn, vs, values, fun _ _ => ⟨⟨HY.budget, ?_⟩, r.tot, sun, ?_, ?_, ?_, ?_, hmean⟩⟩
      · intro o ho
        have e := entry_final htr twoLayer_names o.1 (y := y) (by omega) (by omega)
        obtain ⟨v, v1, v2⟩ := (addYearData_spec twoLayer_names HY.results).2.2.1 o ho
        rw [hns] at e v2
        rw [e, v2, v1]
      all_goals
        have e := entry_final htr twoLayer_names
        obtain ⟨-, -, -, v1, ⟨s, e2, v2⟩, ⟨vn', e3, v3⟩, ⟨vs', e4, v4⟩⟩ := addYearData_spec twoLayer_names HY.results
        rw [HY.sunE, Except.ok.injEq] at e2
        rw [HY.vnE, Except.ok.injEq] at e3
        rw [HY.vsE, Except.ok.injEq] at e4
        subst e2 e3 e4
        have e' := fun o => e o (y := y) (by omega) (by omega)
        rw [hns] at e' v1 v2 v3 v4
        rw [e']
        assumption
    · exact ⟨0, 0, 0, [], [], [], fun a b => absurd ⟨a, b⟩ hy⟩
  choose w nh sh vn vs vals hv using hex
  have hb := two_layer_budget (r := d1.results) hm hdp (st := fun y => (tr y).thermal) (by rw [← hns]; exact hinit)
    (fun y a b => (hv y a b).1) hy1 hy2
  obtain ⟨T, S, e1, e2, e3, e4, e5⟩ := (hv y hy1 hy2).2
  rw [e5] at hb
  refine ⟨T, S, _, _, w y, e1, e2, e3, e4, ?_⟩
  rw [show T + S + Driver.mean (vn y) + Driver.mean (vs y) = T + S + (Driver.mean (vn y) + Driver.mean (vs y)) by ring]
  exact hb

/-! ## Runs driven by a forcing array -/

section
variable {F κ τ : Type} [Add F] [Sub F] [Mul F] [Div F] [Neg F] [OfScientific F] [LT F] [DecidableLT F] [MathFn F]

/-- The years of a run driven by an array. -/
theorem array_trace {cops : CarbonOps F κ} {tops : ThermalOps F τ} {d d' : Driver F κ} {p : RunPams F} {t : τ}
    (h : run cops tops d p = .ok (d', t)) {xs : List F} (hs : d.source = .forcing (.array xs)) :
    ∃ tr, Trace cops tops d p d' t tr ∧ ∀ y, d.nystart ≤ y → y ≤ d.nyend → ∃ x s vn vs values,
      xs[(y - d.nystart).toNat]? = some x ∧ rowOf d.sun (y - d.nystart) = .ok s ∧
      rowOf d.volcN (y - d.nystart) = .ok vn ∧ rowOf d.volcS (y - d.nystart) = .ok vs ∧
      tops.budget (tops.setFeedback (tr y).thermal 0.0) (x + s) (x + s) vn vs = .ok (values, (tr (y + 1)).thermal) ∧
      addYearData tops d (tr y).results values (x + s) (y - d.nystart) = .ok (tr (y + 1)).results := by
  obtain ⟨tr, htr⟩ := run_trace h
  obtain ⟨-, -, hsrc, -⟩ := startRun_spec htr.start
  refine ⟨tr, htr, fun y h1 h2 => ?_⟩
  have hk : (tr y).source = .forcing (.array xs) := by
    refine htr.keep (fun s => s.source = .forcing (.array xs)) d.nystart y h1 ?_ ?_
    · intro z a b e
      obtain ⟨f, vn, vs, values, hf, -⟩ := yearStep_spec (htr.step z a (by omega))
      rw [e] at hf
      exact (forcing_source hf).2
    · rw [hs] at hsrc
      simpa [resetSource] using hsrc.symm
  obtain ⟨f, vn, vs, values, hf, hvn, hvs, hb, -, ha⟩ := yearStep_spec (htr.step y h1 h2)
  rw [hk] at hf
  have e := (forcing_source hf).1
  unfold forcSet prescribed at e
  simp only [bind_eq_ok] at e
  obtain ⟨q, ⟨x, hx, hq⟩, s, hsun, e⟩ := e
  rw [pure_ok, Except.ok.injEq] at hq e
  subst hq
  subst e
  exact ⟨x, s, vn, vs, values, (rowOf_eq_ok.1 hx).2, hsun, hvn, hvs, hb, ha⟩

end

/-- **C81**, energy budget of runs driven by a forcing array: likewise; the reported total already contains the solar
forcing, and the feedback is the parameter `lambda`. -/
theorem C81_array_budget {κ : Type} {cops : CarbonOps ℝ κ} {d d1 : Driver ℝ κ} {p : RunPams ℝ}
    {t : TwoLayer.Pams ℝ × TwoLayer.State ℝ} (hr : run cops twoLayerOps d p = .ok (d1, t)) {xs : List ℝ}
    (hs : d.source = .forcing (.array xs)) :
    ∃ q, twoLayerPams (cutAndCheckPamset twoLayerRequired (p.udm.getD []) []) = .ok q ∧
      (q.mixed ≠ 0 → q.deep ≠ 0 → ∀ y, d.nystart ≤ y → y ≤ d.nyend → ∃ x S VN VS,
        xs[(y - d.nystart).toNat]? = some x ∧
        entry d1.results "Total_forcing" (y - d.nystart).toNat = some (x + S) ∧
        entry d1.results "Solar_forcing" (y - d.nystart).toNat = some S ∧
        entry d1.results "Volcanic_forcing_NH" (y - d.nystart).toNat = some VN ∧
        entry d1.results "Volcanic_forcing_SH" (y - d.nystart).toNat = some VS ∧
        TwoLayerBudget q d1.results (y - d.nystart).toNat (x + S + VN + VS) q.lambda) := by
  obtain ⟨tr, htr, hyr⟩ := array_trace hr hs
  obtain ⟨-, hcr, -⟩ := startRun_spec htr.start
  obtain ⟨hq, hinit⟩ := two_layer_created hcr
  refine ⟨_, hq, fun hm hdp y hy1 hy2 => ?_⟩
  have hex : ∀ y, ∃ x S vn vs vals, d.nystart ≤ y → y ≤ d.nyend →
      ((twoLayerOps (F := ℝ)).budget ((twoLayerOps (F := ℝ)).setFeedback (tr y).thermal 0.0) (x + S) (x + S) vn vs =
          .ok (vals, (tr (y + 1)).thermal) ∧
        ∀ o ∈ (twoLayerOps (F := ℝ)).outputs, entry d1.results o.1 (y - d.nystart).toNat = vals.get? o.2) ∧
      xs[(y - d.nystart).toNat]? = some x ∧
      entry d1.results "Total_forcing" (y - d.nystart).toNat = some (x + S) ∧
      entry d1.results "Solar_forcing" (y - d.nystart).toNat = some S ∧
      entry d1.results "Volcanic_forcing_NH" (y - d.nystart).toNat = some (Driver.mean vn) ∧
      entry d1.results "Volcanic_forcing_SH" (y - d.nystart).toNat = some (Driver.mean vs) := by
    intro y
    by_cases hy : d.nystart ≤ y ∧ y ≤ d.nyend
    · obtain ⟨x, s, vn, vs, values, hx, hsun, hvn, hvs, hb, hadd⟩ := hyr y hy.1 hy.2
      have e := fun o => entry_final htr twoLayer_names o hy.1 hy.2
      obtain ⟨-, -, v0, v1, ⟨s', e2, v2⟩, ⟨vn', e3, v3⟩, ⟨vs', e4, v4⟩⟩ := addYearData_spec twoLayer_names hadd
      rw [hsun, Except.ok.injEq] at e2
      rw [hvn, Except.ok.injEq] at e3
      rw [hvs, Except.ok.injEq] at e4
      subst e2 e3 e4
      refine ⟨x, s, vn, vs, values, fun _ _ => ⟨⟨hb, ?_⟩, hx, ?_, ?_, ?_, ?_⟩⟩
      · intro o ho
        obtain ⟨v, a, b⟩ := v0 o ho
        rw [e, b, a]
      · rw [e, v1]
      · rw [e, v2]
      · rw [e, v3]
      · rw [e, v4]
    · exact ⟨0, 0, [], [], [], fun a b => absurd ⟨a, b⟩ hy⟩
  choose x S vn vs vals hv using hex
  have hb := two_layer_budget (r := d1.results) hm hdp (st := fun y => (tr y).thermal) hinit
    (w := fun _ => 0.0) (fun y a b => (hv y a b).1) hy1 hy2
  obtain ⟨e0, e1, e2, e3, e4⟩ := (hv y hy1 hy2).2
  refine ⟨x y, S y, _, _, e0, e1, e2, e3, e4, ?_⟩
  rw [show (x y + S y + (x y + S y)) / 2 + (Driver.mean (vn y) + Driver.mean (vs y)) =
    x y + S y + Driver.mean (vn y) + Driver.mean (vs y) by ring, sci0, zero_mul, add_zero] at hb
  exact hb

/-! ## The hypotheses are met -/

section
open Verif.Exec Verif.Model.CarbonInst

/-- The last of three runs with aerosols, ozone, the sun and perturbations: in 2002 the budget closes. -/
example (b : Bool) : ∃ (d1 : Driver ℝ (BoxM ℝ)) (q : TwoLayer.Pams ℝ) (T S VN VS w : ℝ),
    entry d1.results "Total_forcing" 4 = some T ∧ entry d1.results "Solar_forcing" 4 = some S ∧
    TwoLayerBudget q d1.results 4 (T + S + VN + VS) (q.lambda + w * q.delta_lambda_aero) ∧
    ∃ a, entry d1.results "OHCTOT" 4 = some a ∧ a - prior d1.results "OHCTOT" 4 =
      imbalance q (T + S + VN + VS) (q.lambda + w * q.delta_lambda_aero) (prior d1.results "dT_fast" 4)
        (prior d1.results "dT_slow" 4) * yearOceanHeat := by
  obtain ⟨h0, d, d1, t, g, hc, ht, ha, hr, hg⟩ := rich_case b
  obtain ⟨q, hq, hb⟩ := C81_emission_budget (d0 := richDriver h0) (rich_once b).1 (rich_once b).2 ht hc rfl ha hr hg rich_noJust
  have hq' : q = ⟨3.74 / 3.0, 50, 1200, 0.5, 1, 0.61, 0.81, 0.0⟩ := by
    have e : twoLayerPams (cutAndCheckPamset (twoLayerRequired (F := ℝ)) ((none : Option (Dict (PyVal ℝ))).getD []) []) =
        .ok ⟨3.74 / 3.0, ofInt 50, ofInt 1200, 0.5, ofInt 1, 0.61, 0.81, 0.0⟩ := rfl
    rw [e, Except.ok.injEq] at hq
    rw [← hq]
    simp
  obtain ⟨T, S, VN, VS, w, e1, e2, -, -, e5⟩ := hb (by rw [hq']; norm_num) (by rw [hq']; norm_num) 2002
    (by simp [richDriver]) (by simp [richDriver])
  have hi : (2002 - (richDriver h0).nystart).toNat = 4 := rfl
  rw [hi] at e1 e2 e5
  exact ⟨d1, q, T, S, VN, VS, w, e1, e2, e5, e5.heat⟩

/-- A run driven by an array meets the hypotheses of `C81_array_budget`. -/
example : ∃ d' t', run noCarbon (twoLayerOps (F := ℝ)) exRfDriver ⟨none, none, none⟩ = .ok (d', t') ∧
    ∃ q, twoLayerPams (cutAndCheckPamset (twoLayerRequired (F := ℝ)) [] []) = .ok q ∧ q.mixed ≠ 0 ∧ q.deep ≠ 0 := by
  obtain ⟨d', t', h⟩ := exRf_runs
  refine ⟨d', t', h, _, rfl, ?_, ?_⟩
  · show (ofInt 50 : ℝ) ≠ 0
    simp
  · show (ofInt 1200 : ℝ) ≠ 0
    simp

end
end Verif.Props
