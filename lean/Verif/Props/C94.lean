import Verif.Lemmas.OneGasRun
import Verif.Props.C93_order
import Verif.Exec.GasRun

/-!
# C94: what one gas does

Two concentration-driven runs that differ in the prescribed concentrations of one gas only.
-/

namespace Verif.Props
open Verif.Py Verif.Py.Dict Verif.Model Verif.Model.Handler Verif.Model.Driver Verif.Model.ThermalInst Verif.Spec
open Verif.Lemmas.OneGas
open Verif.Spec.Diffusion (Physical feedback Ordered Gentle)
open Verif.Spec.Tridiag (Exact)

variable {κ τ τ' : Type} {k : String} {x : Gas ℝ} {i i' : Inputs ℝ}

/-- After the same earlier runs the two instances are still in step. -/
theorem after_pair {cops : CarbonOps ℝ κ} {tops : ThermalOps ℝ τ} {tops' : ThermalOps ℝ τ'} {d0 d0' : Driver ℝ κ}
    {h0 h0' : Handler ℝ κ} (hd0 : d0.source = .handler h0) (hd0' : d0'.source = .handler h0') (hs : SameSetting d0 d0')
    (P : Pair k x i i' d0.nystart d0.nyend h0 h0') : ∀ {ps : List (RunPams ℝ)} {d d' : Driver ℝ κ},
    After cops tops d0 ps d → After cops tops' d0' ps d' → (∀ q ∈ ps, "just_one" ∉ Dict.keys (q.emiconc.getD [])) →
    ∃ h h', d.source = .handler h ∧ d'.source = .handler h' ∧ Pair k x i i' d0.nystart d0.nyend h h' ∧
      d.nystart = d0.nystart ∧ d.nyend = d0.nyend ∧ SameSetting d d' := by
  intro ps
  induction ps using List.reverseRecOn with
  | nil =>
    intro d d' a a' _
    rw [after_nil a, after_nil a']
    exact ⟨h0, h0', hd0, hd0', P, rfl, rfl, hs⟩
  | append_singleton ps q ih =>
    intro d d' a a' hj
    obtain ⟨m, t, b, e⟩ := after_snoc a
    obtain ⟨m', t', b', e'⟩ := after_snoc a'
    obtain ⟨h, h', s, s', Q, n1, n2, S⟩ := ih b b' (fun r hr => hj r (List.mem_append_left _ hr))
    rw [← n1, ← n2] at Q
    obtain ⟨g, g', u, u', R⟩ := Q.run_pair s s' S.first S.last S.luc S.sun
      (hj q (List.mem_append_right _ (List.mem_singleton.2 rfl))) rfl rfl e e'
    obtain ⟨-, -, -, -, -, -, -, z⟩ := run_handler_spec s e
    obtain ⟨-, -, -, -, -, -, -, z'⟩ := run_handler_spec s' e'
    rw [n1, n2] at R
    refine ⟨g, g', u, u', R, ?_, ?_, ?_⟩
    · rw [z]; exact n1
    · rw [z]; exact n2
    · rw [z, z']
      exact ⟨S.first, S.last, S.luc, S.sun, S.north, S.south⟩

/-- The forcings of the years of the two runs. -/
theorem forced_pair {cops : CarbonOps ℝ κ} {d d1 d' d1' : Driver ℝ κ} {p p' : RunPams ℝ} {h h' : Handler ℝ κ}
    (hd : d.source = .handler h) (hd' : d'.source = .handler h') (hs : SameSetting d d')
    (P : Pair k x i i' d.nystart d.nyend h h') (hj : "just_one" ∉ Dict.keys (p.emiconc.getD [])) (hp : p'.emiconc = p.emiconc)
    (hp' : p'.carbon = p.carbon) {f f' : ℕ → YearForcing ℝ} {v v' : ℕ → Option (Dict ℝ)} (F : ForcedBy cops d d1 p f v)
    (F' : ForcedBy cops d' d1' p' f' v') : ∀ n < (d.nyend - d.nystart + 1).toNat,
      f' n = ⟨(f n).fn + gasEffect x (i.concIn.cell k) (i'.concIn.cell k) d.nystart (d.nystart + n),
        (f n).fs + gasEffect x (i.concIn.cell k) (i'.concIn.cell k) d.nystart (d.nystart + n),
        (f n).forc + gasEffect x (i.concIn.cell k) (i'.concIn.cell k) d.nystart (d.nystart + n), (f n).wAero⟩ := by
  obtain ⟨src, r, -, st⟩ := F.chain
  obtain ⟨src', r', -, st'⟩ := F'.chain
  rw [hd] at r
  rw [hd', hp, hp'] at r'
  unfold resetSource at r r'
  simp only [bind_eq_ok] at r r'
  obtain ⟨g, e, r⟩ := r
  obtain ⟨g', e', r'⟩ := r'
  rw [pure_ok, Except.ok.injEq] at r r'
  have Q := P.reset hj e e'
  have key := (Q.chain (d := d) (d' := d') (cops := cops) rfl hs.first hs.luc hs.sun
    (src := fun y => src (y - d.nystart).toNat) (src' := fun y => src' (y - d.nystart).toNat)
    (f := fun y => f (y - d.nystart).toNat) (f' := fun y => f' (y - d.nystart).toNat)
    (v := fun y => v (y - d.nystart).toNat) (v' := fun y => v' (y - d.nystart).toNat)
    (by simp [← r]) (by simp [← r'])
    (fun y h1 h2 => by
      have a := st (y - d.nystart).toNat (by omega)
      rw [show d.nystart + ((y - d.nystart).toNat : ℤ) = y by omega,
        show (y - d.nystart).toNat + 1 = (y + 1 - d.nystart).toNat by omega] at a
      exact a)
    (fun y h1 h2 => by
      have a := st' (y - d.nystart).toNat (by have := hs.first; have := hs.last; omega)
      rw [hs.first, show d.nystart + ((y - d.nystart).toNat : ℤ) = y by omega,
        show (y - d.nystart).toNat + 1 = (y + 1 - d.nystart).toNat by omega] at a
      exact a)).2
  intro n hn
  have := key (d.nystart + n) (by omega) (by omega)
  simpa [show (d.nystart + (n : ℤ) - d.nystart).toNat = n by omega] using this

section
variable {cops : CarbonOps ℝ κ} {d0 d d1 d0' d' d1' : Driver ℝ κ} {pamset carb : Option (Dict (PyVal ℝ))}
  {h0 h0' g g' : Handler ℝ κ} {es : ℤ} {ps : List (RunPams ℝ)} {p : RunPams ℝ}

/-- **C94.** Two instances whose inputs differ in the prescribed concentrations of the gas `k` only, driven by concentrations, new
or after the same runs. For every run (any thermal model, perturbations and parameters, without a request for a single
component) and every year, the reported forcing of `k` and the reported total move by the documented effect of the gas, every
other reported forcing is the same (so no gas changes the forcing of another one), and so is every other reported
concentration. -/
theorem C94_forcing {tops : ThermalOps ℝ τ} {tops' : ThermalOps ℝ τ'} {t : τ} {t' : τ'} (hi : OnlyConcOf k i i')
    (hgas : i.gas.keys.Nodup) (hx : PlainGas i.gas k x)
    (ht : RunTables i.concIn i.emis (Dict.set (Factory.checkPamset pamset) "conc_run" (.bool i.concRun))
      d0.nystart es d0.nyend)
    (hout : (tops.outputs.map Prod.fst ++ forcOutputList).Nodup) (hout' : (tops'.outputs.map Prod.fst ++ forcOutputList).Nodup)
    (hc : construct cops i pamset carb = .ok h0) (hc' : construct cops i' pamset carb = .ok h0')
    (hd0 : d0.source = .handler h0) (hd0' : d0'.source = .handler h0') (hs : SameSetting d0 d0') (hj : NoJustOne pamset ps p)
    (ha : After cops tops d0 ps d) (ha' : After cops tops' d0' ps d') (hr : run cops tops d p = .ok (d1, t))
    (hr' : run cops tops' d' p = .ok (d1', t')) (hg : d1.source = .handler g) (hg' : d1'.source = .handler g')
    {y : ℤ} (hy1 : d0.nystart ≤ y) (hy2 : y ≤ d0.nyend) :
    (∃ tot, entry d1.results "Total_forcing" (y - d0.nystart).toNat = some tot ∧
      entry d1'.results "Total_forcing" (y - d0.nystart).toNat =
        some (tot + gasEffect x (i.concIn.cell k) (i'.concIn.cell k) d0.nystart y)) ∧
    List.Forall₂ (fun c c' => c'.1 = c.1 ∧ (c.1 ≠ "Total_forcing" → ∃ v, c.2 y = some v ∧
        c'.2 y = some (if c.1 = k then v + gasEffect x (i.concIn.cell k) (i'.concIn.cell k) d0.nystart y else v)))
      (reportForcing g d0.nystart) (reportForcing g' d0.nystart) ∧
    List.Forall₂ (fun c c' => c'.1 = c.1 ∧ (c.1 ≠ k → c'.2 y = c.2 y)) (reportConc g) (reportConc g') := by
  have P0 := construct_pair hi hgas hx ht hj.1 hc hc'
  obtain ⟨h, h', s, s', P, n1, n2, S⟩ := after_pair hd0 hd0' hs P0 ha ha' (fun q hq => hj.2 q (List.mem_append_left _ hq))
  have hjp := hj.2 p (List.mem_append_right _ (List.mem_singleton.2 rfl))
  rw [← n1, ← n2] at P
  refine ⟨?_, ?_⟩
  · obtain ⟨st, src, f, vals, -, b1, -, -, -, -, b2, -, b3, -⟩ := C40_run hout hr
    obtain ⟨st', src', f', vals', -, b1', -, -, b4', b5', b2', -, b3', -⟩ := C40_run hout' hr'
    have hb := b3
    rw [s] at b1
    rw [s'] at b1'
    unfold resetSource at b1 b1'
    simp only [bind_eq_ok] at b1 b1'
    obtain ⟨m, e, b1⟩ := b1
    obtain ⟨m', e', b1'⟩ := b1'
    rw [pure_ok, Except.ok.injEq] at b1 b1'
    rw [S.first] at b1'
    have Q := P.reset hjp e e'
    have key := (Q.chain (d := d) (d' := d') (cops := cops) rfl S.first S.luc S.sun (src := src) (src' := src') (f := f) (f' := f')
      b1.symm b1'.symm (fun y h1 h2 => (b2 y h1 h2).1)
      (fun y h1 h2 => (b2' y (by rw [S.first]; exact h1) (by rw [S.last]; exact h2)).1)).2 y (by omega) (by omega)
    obtain ⟨-, -, -, -, -, -, -, z⟩ := run_handler_spec s hr
    have z1 : d1.nystart = d0.nystart := by rw [z]; exact n1
    have z2 : d1.nyend = d0.nyend := by rw [z]; exact n2
    rw [S.first, n1] at b4'
    rw [S.last, n2] at b5'
    obtain ⟨a, a1, -, a3⟩ := b3
    obtain ⟨a', a1', -, a3'⟩ := b3'
    obtain ⟨w, w1, w2⟩ := a3 y (by omega) (by omega)
    obtain ⟨w', w1', w2'⟩ := a3' y (by omega) (by omega)
    rw [z1] at w1
    rw [b4'] at w1'
    refine ⟨w, by unfold entry; rw [a1]; exact w1, ?_⟩
    unfold entry
    rw [a1']
    show a'[(y - d0.nystart).toNat]? = _
    rw [w1', w2', w2, key, n1]
  · obtain ⟨m, m', u, u', R⟩ := P.run_pair s s' S.first S.last S.luc S.sun hjp rfl rfl hr hr'
    rw [hg, Source.handler.injEq] at u
    rw [hg', Source.handler.injEq] at u'
    subst u u'
    rw [n1, n2] at R
    have hyears : g.years = pyRange d0.nystart (d0.nyend + 1) := by
      obtain ⟨hh, hh1, -, kept, -⟩ := after_spec yearLaw_real hd0 ha (fun _ => True) trivial
        (fun _ _ _ _ _ _ _ => trivial) (fun _ _ _ _ _ _ => trivial)
      obtain ⟨g1, g2, r1, r2, r3, -⟩ := run_handler_spec hh1 hr
      rw [hg, Source.handler.injEq] at r2
      subst r2
      obtain ⟨pam, c, -, -, rfl⟩ := reset_spec r1
      obtain ⟨-, -, -, -, -, -, -, -, -, -, z⟩ := constructed hc ht
      rw [r3.years]
      show hh.years = _
      rw [kept.years, z]
    have hin : ¬ (y < d0.nystart ∨ g.years.length ≤ (y - d0.nystart).toNat) := by
      rw [hyears, pyRange_length]; omega
    have hkf : ∀ t ∈ g.forcKeys, t ≠ k := by
      obtain ⟨hh, hh1, -, kept, -⟩ := after_spec yearLaw_real hd0 ha (fun _ => True) trivial
        (fun _ _ _ _ _ _ _ => trivial) (fun _ _ _ _ _ _ => trivial)
      obtain ⟨g1, g2, r1, r2, r3, -⟩ := run_handler_spec hh1 hr
      rw [hg, Source.handler.injEq] at r2
      subst r2
      obtain ⟨pam, c, -, -, rfl⟩ := reset_spec r1
      rw [r3.forcKeys]
      show ∀ t ∈ forcKeysOf hh.prec.spicy, t ≠ k
      rw [kept.prec]
      intro t htm e
      subst e
      unfold forcKeysOf at htm
      have hsp := P0.free
      simp only at htm
      split at htm
      · exact hsp (List.mem_filter.1 htm).1
      · rcases List.mem_append.1 htm with hm | hm
        · exact hsp (List.mem_filter.1 hm).1
        · rw [List.mem_singleton] at hm
          exact hx.notTotal hm
    have hname : ∀ t, t ≠ k → reportName t ≠ k := by
      intro t htk
      unfold reportName
      split
      · exact fun e => hx.notSulfate.2 e.symm
      · exact htk
    refine ⟨?_, ?_⟩
    · unfold reportForcing
      rw [R.beside.forcKeys, R.beside.years, R.cols]
      refine List.rel_append (List.forall₂_map_left_iff.2 (List.forall₂_map_right_iff.2 (List.forall₂_same.2 ?_)))
        (List.forall₂_map_left_iff.2 (List.forall₂_map_right_iff.2 (List.forall₂_same.2 ?_)))
      · intro t htm
        refine ⟨rfl, fun hT => ?_⟩
        simp only [if_neg hin]
        refine ⟨_, rfl, ?_⟩
        rw [if_neg (hname t (hkf t htm)), R.beside.forc t]
        rintro rfl
        exact hT rfl
      · intro c hcm
        refine ⟨rfl, fun _ => ?_⟩
        obtain ⟨v, v1, v2⟩ := R.erf c hcm y hy1 hy2
        refine ⟨v, v1, ?_⟩
        simp only [v2]
        by_cases hck : c = k
        · subst hck
          rw [if_pos rfl, if_pos]
          unfold reportName
          rw [if_neg hx.notSulfate.1]
        · rw [if_neg hck, if_neg (hname c hck)]
    · unfold reportConc
      rw [R.beside.gas, R.beside.concKeys, R.beside.years, R.beside.conc, R.gases, R.conc, R.conc']
      refine List.forall₂_map_left_iff.2 (List.forall₂_map_right_iff.2 (List.forall₂_same.2 ?_))
      intro c _
      refine ⟨rfl, fun hck => ?_⟩
      simp only
      split
      · split
        · rfl
        · unfold concRows
          rw [lookup_map_pyRange (fun y c => i.concIn.cell c y), lookup_map_pyRange (fun y c => i'.concIn.cell c y)]
          split
          · simp only [Option.map_some, hi.others c hck]
          · rfl
      · rfl

/-- What the order theorems need of the two runs. -/
theorem pair_years {tops : ThermalOps ℝ τ} (hi : OnlyConcOf k i i') (hgas : i.gas.keys.Nodup) (hx : PlainGas i.gas k x)
    (ht : RunTables i.concIn i.emis (Dict.set (Factory.checkPamset pamset) "conc_run" (.bool i.concRun))
      d0.nystart es d0.nyend)
    (hc : construct cops i pamset carb = .ok h0) (hc' : construct cops i' pamset carb = .ok h0')
    (hd0 : d0.source = .handler h0) (hd0' : d0'.source = .handler h0') (hs : SameSetting d0 d0') (hj : NoJustOne pamset ps p)
    (ha : After cops tops d0 ps d) (ha' : After cops tops d0' ps d')
    (hmore : ∀ y, d0.nystart ≤ y → y ≤ d0.nyend →
      0 ≤ gasEffect x (i.concIn.cell k) (i'.concIn.cell k) d0.nystart y) {dep : ℝ} {ok : ℝ → Prop}
    (hok : ∀ w, ok w) :
    d.nystart = d'.nystart ∧ d.nyend = d'.nyend ∧ d'.nystart = d0.nystart ∧ d'.nyend = d0.nyend ∧
    ∀ f f' v v', ForcedBy cops d d1 p f v → ForcedBy cops d' d1' p f' v' → YearsLe d d' dep ok f f' := by
  have P0 := construct_pair hi hgas hx ht hj.1 hc hc'
  obtain ⟨h, h', s, s', P, n1, n2, S⟩ := after_pair hd0 hd0' hs P0 ha ha' (fun q hq => hj.2 q (List.mem_append_left _ hq))
  have hjp := hj.2 p (List.mem_append_right _ (List.mem_singleton.2 rfl))
  rw [← n1, ← n2] at P
  refine ⟨S.first.symm, S.last.symm, S.first.trans n1, S.last.trans n2, fun f f' v v' F F' => ?_⟩
  intro n hn vn1 vs1 vn2 vs2 a1 a2 a3 a4
  have hn' : n < (d.nyend - d.nystart + 1).toNat := by
    have := S.first
    have := S.last
    omega
  have key := forced_pair s s' S P hjp rfl rfl F F' n hn'
  have hm := hmore (d.nystart + n) (by omega) (by omega)
  rw [← n1] at hm
  rw [S.north, a1, Option.some.injEq] at a3
  rw [S.south, a2, Option.some.injEq] at a4
  subst a3 a4
  rw [key]
  exact ⟨.inl rfl, hok _, by simpa using hm, by simpa using hm, List.forall₂_same.2 fun _ _ => le_rfl,
    List.forall₂_same.2 fun _ _ => le_rfl⟩

/-- **C94**, two-layer model without a state dependent feedback, with parameters for which no layer loses more heat in a year
than it has: if the effect of the gas is not negative in any year, no reported temperature and no reported heat content of the
second run is lower in any year. -/
theorem C94_warms_two_layer {t t' : TwoLayer.Pams ℝ × TwoLayer.State ℝ} (hi : OnlyConcOf k i i')
    (hgas : i.gas.keys.Nodup) (hx : PlainGas i.gas k x)
    (ht : RunTables i.concIn i.emis (Dict.set (Factory.checkPamset pamset) "conc_run" (.bool i.concRun))
      d0.nystart es d0.nyend)
    (hc : construct cops i pamset carb = .ok h0) (hc' : construct cops i' pamset carb = .ok h0')
    (hd0 : d0.source = .handler h0) (hd0' : d0'.source = .handler h0') (hs : SameSetting d0 d0') (hj : NoJustOne pamset ps p)
    (ha : After cops twoLayerOps d0 ps d) (ha' : After cops twoLayerOps d0' ps d')
    (hr : run cops twoLayerOps d p = .ok (d1, t)) (hr' : run cops twoLayerOps d' p = .ok (d1', t')) {q : TwoLayer.Pams ℝ}
    (hq : twoLayerPams (cutAndCheckPamset twoLayerRequired (p.udm.getD []) []) = .ok q) (hq0 : q.delta_lambda_aero = 0)
    (hsmall : SmallSteps q.mixed q.deep q.k q.ocean_efficacy q.lambda)
    (hf0 : 0 ≤ q.foan + q.foas) (hf2 : q.foan + q.foas ≤ 2)
    (hmore : ∀ y, d0.nystart ≤ y → y ≤ d0.nyend →
      0 ≤ gasEffect x (i.concIn.cell k) (i'.concIn.cell k) d0.nystart y) :
    ∀ o ∈ ["dT_glob", "dT_fast", "dT_slow", "OHC_MIXED", "OHC_DEEP", "OHC700", "OHCTOT"],
      ∀ n : ℕ, d0.nystart + n ≤ d0.nyend → EntryLe d1.results d1'.results o n := by
  obtain ⟨n1, n2, n3, n4, hy⟩ := pair_years (d1 := d1) (d1' := d1') hi hgas hx ht hc hc' hd0 hd0' hs hj ha ha' hmore
    (ok := fun w => SmallSteps q.mixed q.deep q.k q.ocean_efficacy (q.lambda + w * q.delta_lambda_aero))
    (fun w => by rw [hq0, mul_zero, add_zero]; exact hsmall)
  have := order_two_layer hr hr' rfl hq hf0 hf2 n1 n2 hy
  rwa [n3, n4] at this

/-- **C94**, diffusion model with constant upwelling in the physical range and without a state dependent feedback. -/
theorem C94_warms_diffusion {solve : UDM.Solver ℝ} (hsol : Exact solve) {t t' : UDM.Model ℝ} (hi : OnlyConcOf k i i')
    (hgas : i.gas.keys.Nodup) (hx : PlainGas i.gas k x)
    (ht : RunTables i.concIn i.emis (Dict.set (Factory.checkPamset pamset) "conc_run" (.bool i.concRun))
      d0.nystart es d0.nyend)
    (hc : construct cops i pamset carb = .ok h0) (hc' : construct cops i' pamset carb = .ok h0')
    (hd0 : d0.source = .handler h0) (hd0' : d0'.source = .handler h0') (hs : SameSetting d0 d0') (hj : NoJustOne pamset ps p)
    (ha : After cops (udmOps solve) d0 ps d) (ha' : After cops (udmOps solve) d0' ps d')
    (hr : run cops (udmOps solve) d p = .ok (d1, t)) (hr' : run cops (udmOps solve) d' p = .ok (d1', t')) {q : UDM.Pams ℝ}
    (hq : udmPams (cutAndCheckPamset udmRequired (p.udm.getD []) []) = .ok q) (hph : Physical q) (hth : q.threstemp = 0)
    (ho : Ordered q q.W) (hg : Gentle q q.W) (hn1 : q.foan ≤ 1) (hs1 : q.foas ≤ 1) (h700 : q.mixed ≤ 700)
    (hq0 : q.delta_lambda_aero = 0) (hfb : 0 < q.lambda)
    (hmore : ∀ y, d0.nystart ≤ y → y ≤ d0.nyend →
      0 ≤ gasEffect x (i.concIn.cell k) (i'.concIn.cell k) d0.nystart y) :
    ∀ o ∈ ["dT_glob", "dT_NH", "dT_SH", "dT_glob_air", "dT_NH_air", "dT_SH_air", "dT_glob_sea", "dT_NH_sea", "dT_SHsea",
        "OHC700", "OHCTOT"],
      ∀ n : ℕ, d0.nystart + n ≤ d0.nyend → EntryLe d1.results d1'.results o n := by
  obtain ⟨n1, n2, n3, n4, hy⟩ := pair_years (d1 := d1) (d1' := d1') hi hgas hx ht hc hc' hd0 hd0' hs hj ha ha' hmore
    (ok := fun w => 0 < feedback q w)
    (fun w => by unfold feedback; rw [hq0, mul_zero, add_zero]; exact one_div_pos.2 hfb)
  have := order_diffusion hsol hr hr' rfl hq hph hth ho hg hn1 hs1 h700 n1 n2 hy
  rwa [n3, n4] at this

end

/-! ## The hypotheses are met -/

section
open Verif.Exec Verif.Lemmas.Tridiag Verif.Model.CarbonInst

/-- The third of three runs in a row with growing concentrations of SF6. -/
theorem sulfur_case (s : ℝ) : ∃ h0 d d1 t g, construct irOps (sulfurInputs s) richPam none = .ok h0 ∧
    After irOps twoLayerOps (richDriver h0) (richRuns.take 2) d ∧
    run irOps twoLayerOps d ⟨none, none, some [("beta_f", .flt 1)]⟩ = .ok (d1, t) ∧ d1.source = .handler g := by
  obtain ⟨h1, h2, h3, h4, h5⟩ := rich_pams
  obtain ⟨h0, hc, h⟩ := C63_default (carb := none) yearLaw_real (i := sulfurInputs s) sulfur_gases (sulfur_tables s) h1 h2 h3 h4
    (by decide) (.absent (by decide)) (by simp)
  obtain ⟨d1, hd⟩ := h (richDriver h0) (richRuns.take 2 ++ [⟨none, none, some [("beta_f", .flt 1)]⟩]) rfl rfl rfl
    (rich_series h0) (by
    intro p hp
    simp only [richRuns, List.take, List.cons_append, List.nil_append, List.mem_cons, List.not_mem_nil, or_false] at hp
    rcases hp with rfl | rfl | rfl
    · exact ⟨h5, .absent (by decide), by simp⟩
    · exact ⟨rfl, .absent (by simp [Dict.keys]), by simp⟩
    · refine ⟨h5, .absent (by decide), ?_⟩
      intro q hq
      simp only [Option.some.injEq] at hq
      subst hq
      intro key hk
      simp only [Dict.keys, List.map_cons, List.map_nil, List.mem_cons, List.not_mem_nil, or_false] at hk
      subst hk
      exact ⟨by decide, by decide, by decide⟩)
  obtain ⟨d, t, ha, hr⟩ := after_snoc hd
  obtain ⟨h, hd, -⟩ := after_spec yearLaw_real (rfl : (richDriver h0).source = .handler h0) ha (fun _ => True)
      trivial (fun _ _ _ _ _ _ _ => trivial) (fun _ _ _ _ _ _ => trivial)
  obtain ⟨g0, g, -, hg, -⟩ := run_handler_spec hd hr
  exact ⟨h0, d, d1, t, g, hc, ha, hr, hg⟩

/-- A run with the diffusion model with growing concentrations of SF6. -/
theorem sulfur_diffusion (s : ℝ) : ∃ h0 d1 t, construct irOps (sulfurInputs s) richPam none = .ok h0 ∧
    run irOps (udmOps exactSolver) (richDriver h0) ⟨some flatSet, none, none⟩ = .ok (d1, t) := by
  obtain ⟨h1, h2, h3, h4, h5⟩ := rich_pams
  obtain ⟨h0, hc, h⟩ := C63_diffusion exactSolver_exact (carb := none) (i := sulfurInputs s) sulfur_gases (sulfur_tables s) h1 h2 h3
    h4 (by decide) (.absent (by decide)) (by simp)
  obtain ⟨d1, hd⟩ := h (richDriver h0) ([] ++ [⟨some flatSet, none, none⟩]) rfl rfl rfl
    (rich_series h0) (by
    intro p hp
    simp only [List.nil_append, List.mem_singleton] at hp
    subst hp
    exact ⟨⟨_, flat_set, flat_safe⟩, h5, .absent (by decide), by simp⟩)
  obtain ⟨d, t, ha, hr⟩ := after_snoc hd
  have := after_nil ha
  subst this
  exact ⟨h0, d1, t, hc, hr⟩

theorem sulfur_setting (h h' : Handler ℝ (IR ℝ)) : SameSetting (richDriver h) (richDriver h') := ⟨rfl, rfl, rfl, rfl, rfl, rfl⟩

theorem sulfur_effect (y : ℤ) : gasEffect ⟨"ppt", 1/2, 25, 3200, 0, 0, 0, 1⟩ ((sulfurInputs 1).concIn.cell "SF6")
    ((sulfurInputs 3).concIn.cell "SF6") 1998 y = (y - 1998 : ℤ) := by
  simp only [gasEffect, sulfurInputs, if_pos]
  push_cast
  ring

/-- SF6 growing by 3 ppt instead of 1 ppt per year, third run in a row: five years after the start its forcing is 5 larger, and
so is the total. -/
example : ∃ (d1 d1' : Driver ℝ (IR ℝ)) (tot : ℝ), entry d1.results "Total_forcing" 5 = some tot ∧
    entry d1'.results "Total_forcing" 5 = some (tot + 5) ∧ EntryLe d1.results d1'.results "dT_glob" 5 := by
  obtain ⟨h0, d, d1, t, g, hc, ha, hr, hg⟩ := sulfur_case 1
  obtain ⟨h0', d', d1', t', g', hc', ha', hr', hg'⟩ := sulfur_case 3
  obtain ⟨p1, p2, p3, -⟩ := rich_pams
  have ht := (sulfur_tables 1).run p1 p2 p3
  have hj : NoJustOne richPam (richRuns.take 2) ⟨none, none, some [("beta_f", .flt 1)]⟩ := by
    refine ⟨by decide, ?_⟩
    intro q hq
    simp only [richRuns, List.take, List.cons_append, List.nil_append, List.mem_cons, List.not_mem_nil, or_false] at hq
    rcases hq with rfl | rfl | rfl <;> simp [Dict.keys]
  obtain ⟨⟨tot, e, e'⟩, -⟩ := C94_forcing (d0 := richDriver h0) (d0' := richDriver h0') (sulfur_only 1 3) sulfur_gases.once
    (sulfur_plain 1) ht twoLayer_names twoLayer_names hc hc' rfl rfl (sulfur_setting h0 h0') hj ha ha' hr hr' hg hg'
    (y := 2003) (by simp [richDriver]) (by simp [richDriver])
  have key := C94_warms_two_layer (d0 := richDriver h0) (d0' := richDriver h0') (sulfur_only 1 3) sulfur_gases.once
    (sulfur_plain 1) ht hc hc' rfl rfl (sulfur_setting h0 h0') hj ha ha' hr hr'
    (show twoLayerPams (cutAndCheckPamset (twoLayerRequired (F := ℝ)) [] []) = .ok TwoLayer.Pams.default by
      have e : twoLayerPams (cutAndCheckPamset (twoLayerRequired (F := ℝ)) [] []) =
        .ok ⟨3.74 / 3.0, ofInt 50, ofInt 1200, 0.5, ofInt 1, 0.61, 0.81, 0.0⟩ := rfl
      rw [e]
      norm_num [TwoLayer.Pams.default])
    (by norm_num [TwoLayer.Pams.default]) (by constructor <;> norm_num [TwoLayer.Pams.default])
    (by norm_num [TwoLayer.Pams.default]) (by norm_num [TwoLayer.Pams.default])
    (fun y h1 _ => by
      change 0 ≤ gasEffect _ _ _ 1998 y
      rw [sulfur_effect]
      exact_mod_cast (sub_nonneg.2 h1))
  refine ⟨d1, d1', tot, e, ?_, key "dT_glob" (by simp) 5 (by simp [richDriver])⟩
  change entry d1'.results "Total_forcing" 5 = some (tot + gasEffect _ _ _ 1998 2003) at e'
  rw [sulfur_effect] at e'
  rw [e']
  norm_num

/-- The same with the diffusion model. -/
example : ∃ (h0 h0' : Handler ℝ (IR ℝ)) (d1 d1' : Driver ℝ (IR ℝ)) (t t' : UDM.Model ℝ),
    construct irOps (sulfurInputs 1) richPam none = .ok h0 ∧ construct irOps (sulfurInputs 3) richPam none = .ok h0' ∧
    run irOps (udmOps exactSolver) (richDriver h0) ⟨some flatSet, none, none⟩ = .ok (d1, t) ∧
    run irOps (udmOps exactSolver) (richDriver h0') ⟨some flatSet, none, none⟩ = .ok (d1', t') ∧
    EntryLe d1.results d1'.results "dT_SH_air" 4 := by
  obtain ⟨h0, d1, t, hc, hr⟩ := sulfur_diffusion 1
  obtain ⟨h0', d1', t', hc', hr'⟩ := sulfur_diffusion 3
  obtain ⟨p1, p2, p3, -⟩ := rich_pams
  have ht := (sulfur_tables 1).run p1 p2 p3
  have hj : NoJustOne richPam [] ⟨some flatSet, none, none⟩ := by
    refine ⟨by decide, ?_⟩
    intro q hq
    simp only [List.nil_append, List.mem_singleton] at hq
    subst hq
    simp [Dict.keys]
  exact ⟨h0, h0', d1, d1', t, t', hc, hc', hr, hr', C94_warms_diffusion (d0 := richDriver h0) (d0' := richDriver h0') exactSolver_exact (sulfur_only 1 3)
    sulfur_gases.once (sulfur_plain 1) ht hc hc' rfl rfl (sulfur_setting h0 h0') hj .fresh .fresh hr hr' flat_set
    C35.flat_physical rfl C35.flat_ordered C35.flat_gentle
    (by simp only [C35.flatPams]; norm_num) (by simp only [C35.flatPams]; norm_num) (by simp only [C35.flatPams]; norm_num)
    (by simp only [C35.flatPams]) (by simp only [C35.flatPams]; norm_num)
    (fun y h1 _ => by
      change 0 ≤ gasEffect _ _ _ 1998 y
      rw [sulfur_effect]
      exact_mod_cast (sub_nonneg.2 h1)) "dT_SH_air" (by simp) 4 (by simp [richDriver])⟩

end

end Verif.Props
