import Verif.Lemmas.Hemispheres
import Verif.Props.C93_order
import Verif.Props.C94
import Verif.Spec.Order

/-!
# C05 in a run, and C98: no smaller reported forcings, no lower reported temperatures

The forcings of the hemispheres are the reported components with their weights. None of the weights is negative, so of two runs
of any kind the one that reports no smaller forcing of any component in any year reports no lower temperature in any year.
-/

namespace Verif.Props
open Verif.Py Verif.Py.Dict Verif.Model Verif.Model.Handler Verif.Model.Driver Verif.Model.ThermalInst Verif.Spec
open Verif.Spec.Diffusion (Physical feedback Ordered Gentle)
open Verif.Spec.Tridiag (Exact)

variable {κ τ : Type}

/-- A run driven by emissions or concentrations, of a new instance or after any runs, without a request for a single component:
`d0` is the new instance, `d` the one that is run, `d1` and `g` the instance and its tables afterwards. The components with a
hemispheric weight are no gases with a concentration, and no gas is called like a reported column that is not a gas. -/
structure RanPlain (cops : CarbonOps ℝ κ) (tops : ThermalOps ℝ τ) (i : Inputs ℝ) (p : RunPams ℝ) (d0 d d1 : Driver ℝ κ) (t : τ)
    (g : Handler ℝ κ) : Prop where
  once : i.gas.keys.Nodup
  notTotal : "Total_forcing" ∉ i.gas.keys
  notDirect : "SO4_DIR" ∉ i.gas.keys
  gases : ∀ k x, i.gas.get? k = some x → x.concUnit ≠ "-" → nhWeight k = 1
  ran : run cops tops d p = .ok (d1, t)
  after : d1.source = .handler g
  history : ∃ pamset carb es ps h0, RunTables i.concIn i.emis
      (Dict.set (Factory.checkPamset pamset) "conc_run" (.bool i.concRun)) d0.nystart es d0.nyend ∧
    construct cops i pamset carb = .ok h0 ∧ d0.source = .handler h0 ∧ After cops tops d0 ps d ∧ NoJustOne pamset ps p

/-- No run asked for a single component. -/
theorem just_none {cops : CarbonOps ℝ κ} {tops : ThermalOps ℝ τ} {d0 d d1 : Driver ℝ κ}
    {i : Inputs ℝ} {pamset carb : Option (Dict (PyVal ℝ))} {h0 g : Handler ℝ κ}
    {ps : List (RunPams ℝ)} {p : RunPams ℝ} {t : τ} (hc : construct cops i pamset carb = .ok h0) (hd0 : d0.source = .handler h0)
    (ha : After cops tops d0 ps d) (hr : run cops tops d p = .ok (d1, t)) (hg : d1.source = .handler g)
    (hj : NoJustOne pamset ps p) : g.pam.get? "just_one" = none := by
  obtain ⟨h, hd, -, kept, -⟩ := after_spec yearLaw_real hd0 ha (fun _ => True) trivial
    (fun _ _ _ _ _ _ _ => trivial) (fun _ _ _ _ _ _ => trivial)
  obtain ⟨g0, g', hre, hg', hs, -⟩ := run_handler_spec hd hr
  rw [hg, Source.handler.injEq] at hg'
  subst hg'
  have kept' : Kept True h0 h :=
    { kept with just := fun _ => kept.just (fun q hq => hj.2 q (List.mem_append_left _ hq)) }
  have k := (kept'.reset yearLaw_real hre
    (fun _ => hj.2 p (List.mem_append_right _ (List.mem_singleton.2 rfl)))).just trivial
  obtain ⟨ns1, ne1, emis', clbr, prec, pre, k0, k', c1, c2, c3, c4, c5, c6, c7, c8, rfl⟩ := construct_spec hc
  rw [hs.pam, k]
  show (avoidRegionalDoubleCounting i.gas.keys
      (Dict.set (Factory.checkPamset pamset) "conc_run" (.bool i.concRun))).get? "just_one" = none
  rw [avoid_get? _ _ _ (by decide), Dict.get?_set, if_neg (by decide), get?_eq_none_iff,
    mem_keys_checkPamset, not_or]
  refine ⟨?_, fun ⟨_, x⟩ => hj.1 x⟩
  unfold Factory.checkPamset cutAndCheckPamset
  rw [mem_keys_checkNumeric, mem_keys_cut]
  simp [Factory.handlerRequired, Dict.keys, Dict.has, Dict.get?, Dict.set]

section
variable {cops : CarbonOps ℝ κ} {tops : ThermalOps ℝ τ} {i : Inputs ℝ} {p : RunPams ℝ} {d0 d d1 : Driver ℝ κ} {t : τ}
  {g : Handler ℝ κ}

theorem RanPlain.setting (R : RanPlain cops tops i p d0 d d1 t g) :
    d = { d0 with source := d.source, results := d.results } ∧ ∃ h, d.source = .handler h := by
  obtain ⟨pamset, carb, es, ps, h0, ht, hc, hd0, ha, hj⟩ := R.history
  obtain ⟨h, -, -, -, hd, hsame, -⟩ := run_years yearLaw_real ht hc hd0 ha R.ran R.after
  exact ⟨hsame, h, hd⟩

theorem RanPlain.settled (R : RanPlain cops tops i p d0 d d1 t g) : Settled i d0.nystart d0.nyend g := by
  obtain ⟨pamset, carb, es, ps, h0, ht, hc, hd0, ha, hj⟩ := R.history
  have hle := ht.nonempty
  obtain ⟨h, emis, tr, H, hd, hsame, htr, hreset, hH, hyr⟩ := run_years yearLaw_real ht hc hd0 ha R.ran R.after
  obtain ⟨b, luc, sun, r, values, vn, vs, Y, HY, hluc, hsun⟩ := hyr d0.nystart le_rfl hle
  obtain ⟨k1, k2, k3, k4, -⟩ := run_forcing R.once R.notTotal ht hc Y le_rfl hle
  obtain ⟨emis', cl, br, he, ht2, hpre, -⟩ := constructed hc ht
  obtain ⟨hvg, -, hsp⟩ := mem_spicy hpre
  have sg := Y.sameC.trans Y.sameG
  refine ⟨by rw [sg.forcKeys]; exact k1, by rw [sg.forcKeys]; exact k2, by rw [sg.prec]; exact k3, sg.gasNone _ k4,
    just_none hc hd0 ha R.ran R.after hj, by rw [sg.years, Y.sameB.years, Y.years], hle, by rw [sg.pert, Y.sameB.pert, Y.pert],
    ?_, ?_⟩
  · rw [sg.prec, Y.sameB.prec, Y.prec]
    intro c hm
    rcases erf_ahead R.once hpre c hm with ⟨x, hx, hu, -⟩ | rfl
    · have hw := R.gases c x hx hu
      have h1 : c ≠ "SO4_DIR" := by
        rintro rfl
        exact R.notDirect ((get?_isSome_iff _ _).1 ⟨x, hx⟩)
      rw [columnWeight_report h1, hw]
    · simp [reportName, columnWeight, nhWeight]
  · rw [sg.forcKeys, Y.sameB.forcKeys, Y.forcKeys]
    unfold forcKeysOf
    intro hm
    simp only at hm
    have : "SO4_DIR" ∈ h0.prec.spicy := by
      split at hm
      · exact (List.mem_filter.1 hm).1
      · rcases List.mem_append.1 hm with hm | hm
        · exact (List.mem_filter.1 hm).1
        · exact absurd (List.mem_singleton.1 hm) (by decide)
    rw [hsp] at this
    exact R.notDirect (List.mem_filter.1 this).1

/-- **C05** in a run: for every instance (new, or after any runs), every run driven by emissions or concentrations without
`just_one`, every thermal model and every year, the two hemispheric forcings the thermal model is called with are the sums of the
reported components, each with the documented weight of the hemisphere, plus perturbations that name the total itself and the
solar forcing of the year. -/
theorem C05_run (R : RanPlain cops tops i p d0 d d1 t g) (hout : (tops.outputs.map Prod.fst ++ forcOutputList).Nodup) {y : ℤ}
    (hy1 : d0.nystart ≤ y) (hy2 : y ≤ d0.nyend) :
    (∀ c ∈ reportForcing g d0.nystart, (c.2 y).isSome) ∧ ∃ sun nh sh w, d0.sun[(y - d0.nystart).toNat]? = some sun ∧
      nh = ((componentColumns g d0.nystart).map (fun c => (c.2 y).getD 0 * columnWeight c.1)).sum
        + pertOf i.pertForc "Total_forcing" y + sun ∧
      sh = ((componentColumns g d0.nystart).map (fun c => (c.2 y).getD 0 * (2 - columnWeight c.1))).sum
        + pertOf i.pertForc "Total_forcing" y + sun ∧
      CalledWith tops d0 d1 y nh sh w := by
  have S := R.settled
  obtain ⟨pamset, carb, es, ps, h0, ht, hc, hd0, ha, hj⟩ := R.history
  obtain ⟨h, emis, tr, H, hd, hsame, htr, hreset, hH, hyr⟩ := run_years yearLaw_real ht hc hd0 ha R.ran R.after
  obtain ⟨b, luc, sun, r, values, vn, vs, Y, HY, hluc, hsun⟩ := hyr y hy1 hy2
  obtain ⟨k1, k2, k3, k4, k5, -⟩ := run_forcing R.once R.notTotal ht hc Y hy1 hy2
  have sg := Y.sameC.trans Y.sameG
  obtain ⟨w1, w2⟩ := conc2forc_weighted Y.forc k5 k1 k2 k4 (by rw [← sg.pam]; exact S.just)
  have hp : totalPert b y = pertOf i.pertForc "Total_forcing" y := by
    unfold totalPert pertOf
    rw [← sg.pert, S.pert]
    cases i.pertForc <;> rfl
  refine ⟨(C06_run R.once R.notTotal hout ht hc hd0 ha R.ran R.after hj hy1 hy2).1, sun, r.nh, r.sh, r.wAero, hsun, ?_, ?_,
    calledWith_year hsame hout htr HY hy1 hy2⟩
  · rw [weighted_columns S hy1 hy2 (fun x => x) rfl, w1, hp, ← sg.forcKeys, ← sg.prec]
    simp only [Y.forcY]
  · rw [weighted_columns S hy1 hy2 (fun x => 2 - x) (by norm_num), w2, hp, ← sg.forcKeys, ← sg.prec]
    simp only [Y.forcY]

/-! ## C98 -/

theorem columnWeight_range (c : String) : 0 ≤ columnWeight c ∧ 0 ≤ 2 - columnWeight c := by
  unfold columnWeight nhWeight
  split_ifs <;> constructor <;> norm_num

theorem weighted_le {y : ℤ} {w : String → ℝ} (hw : ∀ c, 0 ≤ w c) : ∀ {l l' : List (String × (ℤ → Option ℝ))},
    List.Forall₂ (fun c c' => c'.1 = c.1 ∧
      (c.1 ≠ "Total_forcing" → ∃ v v', c.2 y = some v ∧ c'.2 y = some v' ∧ v ≤ v')) l l' →
    ((l.filter (fun c => c.1 ≠ "Total_forcing")).map (fun c => (c.2 y).getD 0 * w c.1)).sum ≤
      ((l'.filter (fun c => c.1 ≠ "Total_forcing")).map (fun c => (c.2 y).getD 0 * w c.1)).sum := by
  intro l l' h
  induction h with
  | nil => exact le_rfl
  | @cons a b l l' hab _ ih =>
    obtain ⟨e, hv⟩ := hab
    by_cases ha : a.1 = "Total_forcing"
    · rw [List.filter_cons_of_neg (by simpa using ha), List.filter_cons_of_neg (by simpa [e] using ha)]
      exact ih
    · obtain ⟨v, v', h1, h2, h3⟩ := hv ha
      rw [List.filter_cons_of_pos (by simpa using ha), List.filter_cons_of_pos (by simpa [e] using ha), List.map_cons,
        List.map_cons, List.sum_cons, List.sum_cons, h1, h2, e]
      exact add_le_add (mul_le_mul_of_nonneg_right h3 (hw _)) ih

end

/-- The years of two runs, the second with no smaller reported forcings. -/
theorem plain_yearsLe {cops cops' : CarbonOps ℝ κ} {tops tops' : ThermalOps ℝ τ} {i i' : Inputs ℝ} {p p' : RunPams ℝ}
    {d0 d d1 d0' d' d1' : Driver ℝ κ} {t t' : τ} {g g' : Handler ℝ κ} (R : RanPlain cops tops i p d0 d d1 t g)
    (R' : RanPlain cops' tops' i' p' d0' d' d1' t' g') (hns : d0'.nystart = d0.nystart) (hne : d0'.nyend = d0.nyend)
    (hw : ∀ y, d0.nystart ≤ y → y ≤ d0.nyend → NoWeaker i i' d0 d0' g g' y) {ok : ℝ → Prop} (hok : ∀ w, ok w)
    {f f' : ℕ → YearForcing ℝ} {v v' : ℕ → Option (Dict ℝ)} (G : ForcedBy cops d d1 p f v) (G' : ForcedBy cops' d' d1' p' f' v') :
    YearsLe d d' 0 ok f f' := by
  obtain ⟨hs, h, hh⟩ := R.setting
  obtain ⟨hs', h', hh'⟩ := R'.setting
  have S := R.settled
  have S' := R'.settled
  have e1 : d.nystart = d0.nystart := by rw [hs]
  have e2 : d.nyend = d0.nyend := by rw [hs]
  have e1' : d'.nystart = d0.nystart := by rw [hs']; exact hns
  have e2' : d'.nyend = d0.nyend := by rw [hs']; exact hne
  intro n hn vn vs vn' vs' x1 x2 x3 x4
  have hnn : (d0.nystart + (n : ℤ) - d0.nystart).toNat = n := by omega
  have W := hw (d0.nystart + n) (by omega) (by omega)
  obtain ⟨sun, s1, s2, s3⟩ := forced_columns G hh R.after (i := i) (by rw [e1, e2]; exact S) (n := n) (by omega)
  obtain ⟨sun', s1', s2', s3'⟩ := forced_columns G' hh' R'.after (i := i') (by rw [e1', e2', ← hns, ← hne]; exact S') (n := n)
    (by omega)
  rw [hs] at s1 x1 x2
  rw [hs'] at s1' x3 x4
  have hsun := W.sun sun sun' (by rw [hnn]; exact s1) (by rw [hnn]; exact s1')
  have hcol := W.columns
  rw [hns] at hcol
  refine ⟨Or.inr rfl, hok _, ?_, ?_, W.north _ _ (by rw [hnn]; exact x1) (by rw [hnn]; exact x3),
    W.south _ _ (by rw [hnn]; exact x2) (by rw [hnn]; exact x4)⟩
  · rw [s2, s2', e1, e1']
    exact add_le_add (add_le_add (weighted_le (fun c => (columnWeight_range c).1) hcol) W.total) hsun
  · rw [s3, s3', e1, e1']
    exact add_le_add (add_le_add (weighted_le (w := fun c => 2 - columnWeight c) (fun c => (columnWeight_range c).2) hcol) W.total)
      hsun

/-- **C98**, two-layer model without a state dependent feedback, with parameters for which no layer loses more heat in a year than
it has. Two runs driven by emissions or concentrations, of any inputs, parameters, histories and carbon cycles: if the second
reports no smaller forcing of any component in any year (and its solar and volcanic forcings are not smaller), it reports no lower
temperature and no smaller heat content in any year. -/
theorem C98_two_layer {cops cops' : CarbonOps ℝ κ} {i i' : Inputs ℝ} {p p' : RunPams ℝ}
    {d0 d d1 d0' d' d1' : Driver ℝ κ} {t t' : TwoLayer.Pams ℝ × TwoLayer.State ℝ} {g g' : Handler ℝ κ}
    (R : RanPlain cops twoLayerOps i p d0 d d1 t g) (R' : RanPlain cops' twoLayerOps i' p' d0' d' d1' t' g')
    (hns : d0'.nystart = d0.nystart) (hne : d0'.nyend = d0.nyend) (hp : p.udm = p'.udm) {q : TwoLayer.Pams ℝ}
    (hq : twoLayerPams (cutAndCheckPamset twoLayerRequired (p'.udm.getD []) []) = .ok q) (hq0 : q.delta_lambda_aero = 0)
    (hsmall : SmallSteps q.mixed q.deep q.k q.ocean_efficacy q.lambda)
    (hf0 : 0 ≤ q.foan + q.foas) (hf2 : q.foan + q.foas ≤ 2)
    (hw : ∀ y, d0.nystart ≤ y → y ≤ d0.nyend → NoWeaker i i' d0 d0' g g' y) :
    ∀ o ∈ ["dT_glob", "dT_fast", "dT_slow", "OHC_MIXED", "OHC_DEEP", "OHC700", "OHCTOT"],
      ∀ n : ℕ, d0.nystart + n ≤ d0.nyend → EntryLe d1.results d1'.results o n := by
  obtain ⟨hs, -⟩ := R.setting
  obtain ⟨hs', -⟩ := R'.setting
  have e1 : d.nystart = d0.nystart := by rw [hs]
  have e2 : d.nyend = d0.nyend := by rw [hs]
  have e1' : d'.nystart = d0.nystart := by rw [hs']; exact hns
  have e2' : d'.nyend = d0.nyend := by rw [hs']; exact hne
  have key := order_two_layer R.ran R'.ran hp hq hf0 hf2 (by rw [e1, e1']) (by rw [e2, e2']) (by
    intro f f' v v' G G'
    rw [hq0]
    exact plain_yearsLe R R' hns hne hw (by intro w; rw [mul_zero, add_zero]; exact hsmall) G G')
  rw [e1', e2'] at key
  exact key

/-- **C98**, diffusion model with constant upwelling in the physical range and without a state dependent feedback. -/
theorem C98_diffusion {solve : UDM.Solver ℝ} (hsol : Exact solve) {cops cops' : CarbonOps ℝ κ} {i i' : Inputs ℝ}
    {p p' : RunPams ℝ} {d0 d d1 d0' d' d1' : Driver ℝ κ} {t t' : UDM.Model ℝ} {g g' : Handler ℝ κ}
    (R : RanPlain cops (udmOps solve) i p d0 d d1 t g) (R' : RanPlain cops' (udmOps solve) i' p' d0' d' d1' t' g')
    (hns : d0'.nystart = d0.nystart) (hne : d0'.nyend = d0.nyend) (hp : p.udm = p'.udm) {q : UDM.Pams ℝ}
    (hq : udmPams (cutAndCheckPamset udmRequired (p'.udm.getD []) []) = .ok q) (hph : Physical q) (hth : q.threstemp = 0)
    (ho : Ordered q q.W) (hg : Gentle q q.W) (hn1 : q.foan ≤ 1) (hs1 : q.foas ≤ 1) (h700 : q.mixed ≤ 700)
    (hq0 : q.delta_lambda_aero = 0) (hfb : 0 < q.lambda)
    (hw : ∀ y, d0.nystart ≤ y → y ≤ d0.nyend → NoWeaker i i' d0 d0' g g' y) :
    ∀ o ∈ ["dT_glob", "dT_NH", "dT_SH", "dT_glob_air", "dT_NH_air", "dT_SH_air", "dT_glob_sea", "dT_NH_sea", "dT_SHsea",
        "OHC700", "OHCTOT"],
      ∀ n : ℕ, d0.nystart + n ≤ d0.nyend → EntryLe d1.results d1'.results o n := by
  obtain ⟨hs, -⟩ := R.setting
  obtain ⟨hs', -⟩ := R'.setting
  have e1 : d.nystart = d0.nystart := by rw [hs]
  have e2 : d.nyend = d0.nyend := by rw [hs]
  have e1' : d'.nystart = d0.nystart := by rw [hs']; exact hns
  have e2' : d'.nyend = d0.nyend := by rw [hs']; exact hne
  have key := order_diffusion hsol R.ran R'.ran hp hq hph hth ho hg hn1 hs1 h700 (by rw [e1, e1']) (by rw [e2, e2']) (by
    intro f f' v v' G G'
    rw [hq0]
    exact plain_yearsLe R R' hns hne hw (by intro w; simpa [feedback, hq0] using hfb) G G')
  rw [e1', e2'] at key
  exact key

/-! ## The hypotheses are met -/

section
open Verif.Exec Verif.Lemmas.Tridiag Verif.Model.CarbonInst

theorem sulfur_ran {tops : ThermalOps ℝ τ} {s : ℝ} {h0 : Handler ℝ (IR ℝ)} {ps : List (RunPams ℝ)} {p : RunPams ℝ}
    {d d1 : Driver ℝ (IR ℝ)} {t : τ} {g : Handler ℝ (IR ℝ)} (hc : construct irOps (sulfurInputs s) richPam none = .ok h0)
    (ha : After irOps tops (richDriver h0) ps d) (hr : run irOps tops d p = .ok (d1, t)) (hg : d1.source = .handler g)
    (hj : NoJustOne richPam ps p) : RanPlain irOps tops (sulfurInputs s) p (richDriver h0) d d1 t g where
  once := sulfur_gases.once
  notTotal := sulfur_gases.notTotal
  notDirect := by simp [sulfurInputs, sulfurGas, Dict.keys]
  gases := by
    intro k x hx hu
    have := sulfur_conc ⟨x, hx, hu⟩
    simp only [List.mem_cons, List.not_mem_nil, or_false] at this
    rcases this with rfl | rfl | rfl | rfl | rfl <;> simp [nhWeight]
  ran := hr
  after := hg
  history := by
    obtain ⟨p1, p2, p3, -⟩ := rich_pams
    exact ⟨richPam, none, 2000, ps, h0, (sulfur_tables s).run p1 p2 p3, hc, rfl, ha, hj⟩

theorem sulfur_noWeaker {tops tops' : ThermalOps ℝ τ} {h0 h0' : Handler ℝ (IR ℝ)} {ps : List (RunPams ℝ)} {p : RunPams ℝ}
    {d d1 d' d1' : Driver ℝ (IR ℝ)} {t t' : τ} {g g' : Handler ℝ (IR ℝ)}
    (hout : (tops.outputs.map Prod.fst ++ forcOutputList).Nodup) (hout' : (tops'.outputs.map Prod.fst ++ forcOutputList).Nodup)
    (hc : construct irOps (sulfurInputs 1) richPam none = .ok h0) (hc' : construct irOps (sulfurInputs 3) richPam none = .ok h0')
    (ha : After irOps tops (richDriver h0) ps d) (hr : run irOps tops d p = .ok (d1, t)) (hg : d1.source = .handler g)
    (ha' : After irOps tops' (richDriver h0') ps d') (hr' : run irOps tops' d' p = .ok (d1', t')) (hg' : d1'.source = .handler g')
    (hj : NoJustOne richPam ps p) (y : ℤ) (hy1 : 1998 ≤ y) (hy2 : y ≤ 2003) :
    NoWeaker (sulfurInputs 1) (sulfurInputs 3) (richDriver h0) (richDriver h0') g g' y := by
  obtain ⟨p1, p2, p3, -⟩ := rich_pams
  obtain ⟨-, hcol, -⟩ := C94_forcing (d0 := richDriver h0) (d0' := richDriver h0') (sulfur_only 1 3) sulfur_gases.once
    (sulfur_plain 1) ((sulfur_tables 1).run p1 p2 p3) hout hout' hc hc' rfl rfl (sulfur_setting h0 h0') hj ha ha' hr hr' hg hg'
    (y := y) hy1 hy2
  have same : ∀ l : List ℝ, List.Forall₂ (· ≤ ·) l l := fun l => List.forall₂_same.2 fun _ _ => le_rfl
  refine ⟨hcol.imp ?_, le_rfl, ?_, ?_, ?_⟩
  · rintro c c' ⟨e, h⟩
    refine ⟨e, fun hT => ?_⟩
    obtain ⟨v, h1, h2⟩ := h hT
    refine ⟨v, _, h1, h2, ?_⟩
    split
    · change v ≤ v + gasEffect _ _ _ 1998 y
      rw [sulfur_effect]
      have : (0 : ℝ) ≤ ((y - 1998 : ℤ) : ℝ) := by exact_mod_cast (sub_nonneg.2 hy1)
      linarith
    · exact le_rfl
  · intro s s' h1 h2
    change (richDriver h0).sun[_]? = some s' at h2
    rw [h1, Option.some.injEq] at h2
    exact h2.le
  · intro s s' h1 h2
    change (richDriver h0).volcN[_]? = some s' at h2
    rw [h1, Option.some.injEq] at h2
    exact h2 ▸ same _
  · intro s s' h1 h2
    change (richDriver h0).volcS[_]? = some s' at h2
    rw [h1, Option.some.injEq] at h2
    exact h2 ▸ same _

/-- `C05_run` and `C98_two_layer`: the third of three runs in a row, with SF6 growing by 1 ppt and by 3 ppt per year. -/
example : ∃ (h0 h0' : Handler ℝ (IR ℝ)) (d d' d1 d1' : Driver ℝ (IR ℝ)) (t t' : TwoLayer.Pams ℝ × TwoLayer.State ℝ)
    (g g' : Handler ℝ (IR ℝ)) (p : RunPams ℝ),
    RanPlain irOps twoLayerOps (sulfurInputs 1) p (richDriver h0) d d1 t g ∧
    RanPlain irOps twoLayerOps (sulfurInputs 3) p (richDriver h0') d' d1' t' g' ∧
    (∃ nh sh w, CalledWith twoLayerOps (richDriver h0) d1 2002 nh sh w) ∧ EntryLe d1.results d1'.results "OHCTOT" 4 := by
  obtain ⟨h0, d, d1, t, g, hc, ha, hr, hg⟩ := sulfur_case 1
  obtain ⟨h0', d', d1', t', g', hc', ha', hr', hg'⟩ := sulfur_case 3
  have hj : NoJustOne richPam (richRuns.take 2) ⟨none, none, some [("beta_f", .flt 1)]⟩ := by
    refine ⟨by decide, ?_⟩
    intro q hq
    simp only [richRuns, List.take, List.cons_append, List.nil_append, List.mem_cons, List.not_mem_nil, or_false] at hq
    rcases hq with rfl | rfl | rfl <;> simp [Dict.keys]
  have R := sulfur_ran hc ha hr hg hj
  have R' := sulfur_ran hc' ha' hr' hg' hj
  refine ⟨h0, h0', d, d', d1, d1', t, t', g, g', _, R, R', ?_, ?_⟩
  · obtain ⟨-, sun, nh, sh, w, -, -, -, h⟩ := C05_run R twoLayer_names (y := 2002) (by simp [richDriver]) (by simp [richDriver])
    exact ⟨nh, sh, w, h⟩
  · exact C98_two_layer R R' rfl rfl rfl
      (show twoLayerPams (cutAndCheckPamset (twoLayerRequired (F := ℝ)) [] []) = .ok TwoLayer.Pams.default by
        have e : twoLayerPams (cutAndCheckPamset (twoLayerRequired (F := ℝ)) [] []) =
          .ok ⟨3.74 / 3.0, ofInt 50, ofInt 1200, 0.5, ofInt 1, 0.61, 0.81, 0.0⟩ := rfl
        rw [e]
        norm_num [TwoLayer.Pams.default])
      (by norm_num [TwoLayer.Pams.default]) (by constructor <;> norm_num [TwoLayer.Pams.default])
      (by norm_num [TwoLayer.Pams.default]) (by norm_num [TwoLayer.Pams.default])
      (sulfur_noWeaker twoLayer_names twoLayer_names hc hc' ha hr hg ha' hr' hg' hj) "OHCTOT" (by simp) 4 (by simp [richDriver])

/-- `C98_diffusion`: the same with the diffusion model. -/
example : ∃ (h0 h0' : Handler ℝ (IR ℝ)) (d1 d1' : Driver ℝ (IR ℝ)) (t t' : UDM.Model ℝ)
    (g g' : Handler ℝ (IR ℝ)) (p : RunPams ℝ),
    RanPlain irOps (udmOps exactSolver) (sulfurInputs 1) p (richDriver h0) (richDriver h0) d1 t g ∧
    RanPlain irOps (udmOps exactSolver) (sulfurInputs 3) p (richDriver h0') (richDriver h0') d1' t' g' ∧
    EntryLe d1.results d1'.results "dT_NH_sea" 4 := by
  obtain ⟨h0, d1, t, hc, hr⟩ := sulfur_diffusion 1
  obtain ⟨h0', d1', t', hc', hr'⟩ := sulfur_diffusion 3
  obtain ⟨-, g, -, hg, -⟩ := run_handler_spec (rfl : (richDriver h0).source = .handler h0) hr
  obtain ⟨-, g', -, hg', -⟩ := run_handler_spec (rfl : (richDriver h0').source = .handler h0') hr'
  have hj : NoJustOne richPam [] ⟨some flatSet, none, none⟩ := by
    refine ⟨by decide, ?_⟩
    intro q hq
    simp only [List.nil_append, List.mem_singleton] at hq
    subst hq
    simp [Dict.keys]
  have R := sulfur_ran hc .fresh hr hg hj
  have R' := sulfur_ran hc' .fresh hr' hg' hj
  exact ⟨h0, h0', d1, d1', t, t', g, g', _, R, R', C98_diffusion exactSolver_exact R R' rfl rfl rfl flat_set
    C35.flat_physical rfl C35.flat_ordered C35.flat_gentle
    (by simp only [C35.flatPams]; norm_num) (by simp only [C35.flatPams]; norm_num) (by simp only [C35.flatPams]; norm_num)
    (by simp only [C35.flatPams]) (by simp only [C35.flatPams]; norm_num)
    (sulfur_noWeaker udm_names udm_names hc hc' .fresh hr hg .fresh hr' hg' hj) "dT_NH_sea" (by simp) 4 (by simp [richDriver])⟩

end

end Verif.Props
