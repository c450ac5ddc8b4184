import Verif.Lemmas.OneGas
import Verif.Lemmas.Rerun
import Verif.Lemmas.Asked
import Verif.Props.C06_run

/-!
# Runs that differ in one gas computed ahead
-/

namespace Verif.Lemmas.OneGas
open Verif.Py Verif.Py.Dict Verif.Model Verif.Model.Handler Verif.Model.Driver Verif.Spec Verif.Props

variable {κ τ τ' : Type}

/-- The names counted in the chlorine and bromine dictionaries. -/
theorem halogen_keys {k : String} (hk : PubUtils.halogens k = .ok (none, none)) : ∀ {l : List String} {c b : Dict ℤ} {r},
    PubUtils.clBrLoop c b l = .ok r → k ∉ c.keys → k ∉ b.keys → k ∉ r.1.keys ∧ k ∉ r.2.keys
  | [], c, b, r, e, hc, hb => by
    unfold PubUtils.clBrLoop at e
    rw [Except.ok.injEq] at e
    subst e
    exact ⟨hc, hb⟩
  | t :: l, c, b, r, e, hc, hb => by
    unfold PubUtils.clBrLoop at e
    rw [bind_eq_ok] at e
    obtain ⟨x, hx, e⟩ := e
    have key : ∀ (d : Dict ℤ) (v : Option ℤ), (t = k → v = none) → k ∉ d.keys → k ∉ (PubUtils.setOpt d t v).keys := by
      intro d v hv hd
      cases v with
      | none => exact hd
      | some v =>
        unfold PubUtils.setOpt
        rw [mem_keys_set, not_or]
        exact ⟨fun e => absurd (hv e.symm) (by simp), hd⟩
    refine halogen_keys hk e (key _ _ ?_ hc) (key _ _ ?_ hb)
    · rintro rfl
      rw [hk, Except.ok.injEq] at hx
      rw [← hx]
    · rintro rfl
      rw [hk, Except.ok.injEq] at hx
      rw [← hx]

/-- Two new handlers whose inputs differ in one gas. -/
structure Pair (k : String) (x : Gas ℝ) (i i' : Inputs ℝ) (ns ne : ℤ) (h h' : Handler ℝ κ) : Prop where
  beside : Beside k h h'
  concIn : h.concIn = i.concIn
  concIn' : h'.concIn = i'.concIn
  gases : h'.prec.gases = h.prec.gases
  spicy : h'.prec.spicy = h.prec.spicy
  cols : h'.prec.erf.cols = h.prec.erf.cols
  once : h.prec.erf.cols.Nodup
  mem : k ∈ h.prec.gases
  col : k ∈ h.prec.erf.cols
  free : k ∉ h.prec.spicy
  conc : h.prec.conc = concRows i.concIn ns ne
  conc' : h'.prec.conc = concRows i'.concIn ns ne
  erf : ∀ c ∈ h.prec.erf.cols, ∀ y, ns ≤ y → y ≤ ne → ∃ v, h.prec.erf.val c y = some v ∧
    h'.prec.erf.val c y = some (if c = k then v + gasEffect x (i.concIn.cell k) (i'.concIn.cell k) ns y else v)
  run : pamB h.pam "conc_run" = .ok true
  just : h.pam.get? "just_one" = none

theorem construct_pair {cops : CarbonOps ℝ κ} {k : String} {x : Gas ℝ} {i i' : Inputs ℝ}
    {pamset carb : Option (Dict (PyVal ℝ))} {h h' : Handler ℝ κ} {ns es ne : ℤ} (hi : OnlyConcOf k i i')
    (hgas : i.gas.keys.Nodup) (hx : PlainGas i.gas k x)
    (ht : RunTables i.concIn i.emis (Dict.set (Factory.checkPamset pamset) "conc_run" (.bool i.concRun)) ns es ne)
    (hj : "just_one" ∉ Dict.keys (pamset.getD []))
    (e : construct cops i pamset carb = .ok h) (e' : construct cops i' pamset carb = .ok h') :
    Pair k x i i' ns ne h h' := by
  obtain ⟨emis0, -, -, q1, q2, -⟩ := constructed e ht
  obtain ⟨ns1, ne1, emis, clbr, prec, pre, k0, kk, h1, h2, h3, h4, h5, h6, h7, h8, rfl⟩ := construct_spec e
  obtain ⟨ns2, ne2, emis', clbr', prec', pre', k0', kk', g1, g2, g3, g4, g5, g6, g7, g8, rfl⟩ := construct_spec e'
  rw [h3, Except.ok.injEq] at q1
  subst q1
  rw [h1, Except.ok.injEq] at g1
  rw [h2, Except.ok.injEq] at g2
  subst g1 g2
  have hem : perturbedEmis i' = perturbedEmis i := by unfold perturbedEmis; rw [hi.emis, hi.pertEm]
  rw [hem, h3, Except.ok.injEq] at g3
  subst g3
  rw [hi.gas, h4, Except.ok.injEq] at g4
  subst g4
  have hset : ∀ k, k ≠ "conc_run" → pamI (Dict.set (Factory.checkPamset pamset) "conc_run"
      (.bool i.concRun)) k = pamI (Factory.checkPamset pamset) k := by
    intro k hk
    unfold pamI Dict.getE
    rw [Dict.get?_set, if_neg (fun e => hk e.symm)]
  have hns := ht.nystart
  have hne := ht.nyend
  rw [hset _ (by decide), h1, Except.ok.injEq] at hns
  rw [hset _ (by decide), h2, Except.ok.injEq] at hne
  subst hns hne
  have hcr : i'.concRun = i.concRun := by rw [hi.concRun, hi.concRun']
  rw [hcr, hi.gas, hi.pertForc] at g5
  have hco2 : i'.concIn.at' "CO2" ns1 = i.concIn.at' "CO2" ns1 := by
    unfold Frame.at'
    rw [hi.cols, hi.idx, hi.others _ (Ne.symm hx.notMain.1)]
  rw [hco2, h6, Except.ok.injEq] at g6
  subst g6
  rw [hcr, h7, Except.ok.injEq] at g7
  subst g7
  rw [h8, Except.ok.injEq] at g8
  subst g8
  have hrun : pamB (Dict.set (Factory.checkPamset pamset) "conc_run" (.bool i.concRun)) "conc_run" = .ok true := by
    unfold pamB Dict.getE
    rw [Dict.get?_set, if_pos rfl, hi.concRun]
    rfl
  have ht' : RunTables i'.concIn emis (Dict.set (Factory.checkPamset pamset) "conc_run" (.bool i.concRun)) ns1 es ne1 :=
    ⟨q2.nystart, q2.nyend, q2.emstart, by rw [hi.idx]; exact q2.concIdx, q2.emisIdx, q2.nonempty, q2.order⟩
  obtain ⟨hcl, hbr⟩ := halogen_keys hx.noHalogen (show PubUtils.clBrLoop [] [] i.gas.keys = .ok clbr from h4)
    (by simp [Dict.keys]) (by simp [Dict.keys])
  obtain ⟨c1, c2, c3, c4, c5, c6, c7, c8, c9, c10⟩ := prec_shift hrun q2 ht' hgas hx hcl hbr hi.others h5 g5
  have hfree : k ∉ concKeysOf i.gas prec.spicy := fun h => c7 (List.mem_filter.1 h).1
  refine ⟨⟨?_, hi.cols, hi.idx, hi.others, fun _ _ => rfl, hfree, hx.notMain.2.1⟩, rfl, rfl, c1, c2, c3, c4, c5, c6, c7, c8,
    c9, c10, ?_, ?_⟩
  · simp only [hi.gas, hi.natCh4, hi.natN2o, hcr, hi.pertForc, c2]
  · have hget : (avoidRegionalDoubleCounting i.gas.keys
        (Dict.set (Factory.checkPamset pamset) "conc_run" (.bool i.concRun))).get? "conc_run" = some (.bool true) := by
      rw [avoid_get? _ _ _ (by decide), Dict.get?_set, if_pos rfl, hi.concRun]
    show pamB (avoidRegionalDoubleCounting i.gas.keys
        (Dict.set (Factory.checkPamset pamset) "conc_run" (.bool i.concRun))) "conc_run" = .ok true
    unfold pamB Dict.getE
    rw [hget]
    rfl
  · show (avoidRegionalDoubleCounting i.gas.keys
        (Dict.set (Factory.checkPamset pamset) "conc_run" (.bool i.concRun))).get? "just_one" = none
    rw [avoid_get? _ _ _ (by decide), Dict.get?_set, if_neg (by decide), get?_eq_none_iff,
      mem_keys_checkPamset, not_or]
    refine ⟨?_, fun ⟨_, x⟩ => hj x⟩
    unfold Factory.checkPamset cutAndCheckPamset
    rw [mem_keys_checkNumeric, mem_keys_cut]
    simp [Factory.handlerRequired, Dict.keys, Dict.has, Dict.get?, Dict.set]

section
variable {k : String} {x : Gas ℝ} {i i' : Inputs ℝ} {ns ne : ℤ} {h h' : Handler ℝ κ}

theorem Pair.of_beside (P : Pair k x i i' ns ne h h') {g g' : Handler ℝ κ} (b : Beside k g g') (hp : g.prec = h.prec)
    (hp' : g'.prec = h'.prec) (hc : g.concIn = h.concIn) (hc' : g'.concIn = h'.concIn)
    (hr : pamB g.pam "conc_run" = .ok true) (hj : g.pam.get? "just_one" = none) : Pair k x i i' ns ne g g' where
  beside := b
  concIn := by rw [hc, P.concIn]
  concIn' := by rw [hc', P.concIn']
  gases := by rw [hp, hp', P.gases]
  spicy := by rw [hp, hp', P.spicy]
  cols := by rw [hp, hp', P.cols]
  once := by rw [hp]; exact P.once
  mem := by rw [hp]; exact P.mem
  col := by rw [hp]; exact P.col
  free := by rw [hp]; exact P.free
  conc := by rw [hp, P.conc]
  conc' := by rw [hp', P.conc']
  erf := by rw [hp, hp']; exact P.erf
  run := hr
  just := hj

theorem Pair.tot (P : Pair k x i i' ns ne h h') {y : ℤ} (h1 : ns ≤ y) (h2 : y ≤ ne) :
    ∃ v, totVanilla h.prec y = .ok v ∧
      totVanilla h'.prec y = .ok (v + gasEffect x (i.concIn.cell k) (i'.concIn.cell k) ns y) :=
  tot_shift P.once P.col P.cols (fun c hc => P.erf c hc y h1 h2)

theorem Pair.reset (P : Pair k x i i' ns ne h h') {cops : CarbonOps ℝ κ} {p q : Option (Dict (PyVal ℝ))}
    (hj : "just_one" ∉ Dict.keys (p.getD [])) {g g' : Handler ℝ κ} (e : resetWithNewPams cops h p q = .ok g)
    (e' : resetWithNewPams cops h' p q = .ok g') : Pair k x i i' ns ne g g' := by
  have K := (Kept.refl True h).reset yearLaw_real e (fun _ => hj)
  have hr : pamB g.pam "conc_run" = .ok true := by
    have := P.run
    unfold pamB Dict.getE at this ⊢
    rw [K.pam _ (by
      unfold Factory.checkPamset cutAndCheckPamset
      rw [mem_keys_checkNumeric, mem_keys_cut]
      simp [Factory.handlerRequired, Dict.keys, Dict.has, Dict.get?, Dict.set]) (by decide)]
    exact this
  have hj' : g.pam.get? "just_one" = none := by rw [K.just trivial, P.just]
  obtain ⟨pam, c, e1, e2, rfl⟩ := reset_spec e
  obtain ⟨pam', c', e1', e2', rfl⟩ := reset_spec e'
  have hcar : h'.carbon = h.carbon := by rw [P.beside.eq]
  rw [P.beside.pam, e1, Except.ok.injEq] at e1'
  rw [hcar, e2, Except.ok.injEq] at e2'
  subst e1' e2'
  refine P.of_beside ⟨?_, P.beside.cols, P.beside.idx, P.beside.cell, fun _ _ => rfl, ?_, P.beside.methane⟩ rfl rfl rfl rfl hr hj'
  · have e := P.beside.eq
    rw [P.beside.gas, P.spicy]
    conv_lhs => rw [e]
  · exact fun hk => P.free (List.mem_filter.1 hk).1

/-- The years of two runs, in step. -/
theorem Pair.chain (P : Pair k x i i' ns ne h h') {cops : CarbonOps ℝ κ} {d d' : Driver ℝ κ} (hns : d.nystart = ns)
    (hns' : d'.nystart = ns) (hluc : d'.luc = d.luc) (hsun : d'.sun = d.sun) {src src' : ℤ → Source ℝ κ}
    {f f' : ℤ → YearForcing ℝ} {v v' : ℤ → Option (Dict ℝ)} (h0 : src ns = .handler h) (h0' : src' ns = .handler h')
    (st : ∀ y, ns ≤ y → y ≤ ne → yearForcing cops d (src y) (v y) y = .ok (f y, src (y + 1)))
    (st' : ∀ y, ns ≤ y → y ≤ ne → yearForcing cops d' (src' y) (v' y) y = .ok (f' y, src' (y + 1))) :
    (∀ y, ns ≤ y → y ≤ ne + 1 → ∃ g g', src y = .handler g ∧ src' y = .handler g' ∧ Pair k x i i' ns ne g g') ∧
    ∀ y, ns ≤ y → y ≤ ne → f' y = ⟨(f y).fn + gasEffect x (i.concIn.cell k) (i'.concIn.cell k) ns y,
      (f y).fs + gasEffect x (i.concIn.cell k) (i'.concIn.cell k) ns y,
      (f y).forc + gasEffect x (i.concIn.cell k) (i'.concIn.cell k) ns y, (f y).wAero⟩ := by
  have step : ∀ y, ns ≤ y → y ≤ ne → ∀ g g', src y = .handler g → src' y = .handler g' → Pair k x i i' ns ne g g' →
      (∃ m m', src (y + 1) = .handler m ∧ src' (y + 1) = .handler m' ∧ Pair k x i i' ns ne m m') ∧
      f' y = ⟨(f y).fn + gasEffect x (i.concIn.cell k) (i'.concIn.cell k) ns y,
        (f y).fs + gasEffect x (i.concIn.cell k) (i'.concIn.cell k) ns y,
        (f y).forc + gasEffect x (i.concIn.cell k) (i'.concIn.cell k) ns y, (f y).wAero⟩ := by
    intro y h1 h2 g g' s s' Q
    have a := st y h1 h2
    have a' := st' y h1 h2
    rw [s] at a
    rw [s'] at a'
    unfold yearForcing at a a'
    simp only [bind_eq_ok] at a a'
    obtain ⟨m, e1, luc, e2, sun, e3, r, e4, a⟩ := a
    obtain ⟨m', e1', luc', e2', sun', e3', r', e4', a'⟩ := a'
    rw [pure_ok, Except.ok.injEq, Prod.mk.injEq] at a a'
    rw [hluc, hns', ← hns, e2, Except.ok.injEq] at e2'
    rw [hsun, hns', ← hns, e3, Except.ok.injEq] at e3'
    subst e2' e3'
    obtain ⟨n', b1, b2, b3, b4, b5, b6, b7⟩ := emi_beside (cops := cops) (fb' := feedbackDict d'.feedbackList (v' y)) Q.beside Q.run e1
    rw [b1, Except.ok.injEq] at e1'
    subst e1'
    obtain ⟨w, w1, w2⟩ := Q.tot h1 h2
    have hmj : m.pam.get? "just_one" = none := by rw [b7, Q.just]
    obtain ⟨r1, g1, c1, c2, c3, c4, c5, c6, c7, c8, c9, c10, c11, -⟩ := forc_shift b2 (yr := y) (luc := luc) (sun := sun)
      (r := r.1) (g := r.2) hmj (by rw [b5, w1]) (by rw [b3, w2]) e4
    rw [c1, Except.ok.injEq] at e4'
    subst e4'
    have hw : w + gasEffect x (i.concIn.cell k) (i'.concIn.cell k) ns y - w =
      gasEffect x (i.concIn.cell k) (i'.concIn.cell k) ns y := by ring
    rw [hw] at c8 c9 c10
    refine ⟨⟨r.2, g1, a.2.symm, a'.2.symm, Q.of_beside c2 (by rw [c5, b5]) (by rw [c3, b3]) (by rw [c6, b6]) (by rw [c4, b4])
      (by rw [c7, b7, Q.run]) (by rw [c7, hmj])⟩, ?_⟩
    rw [← a.1, ← a'.1]
    simp only [c8, c9, c10, c11]
  have all : ∀ n : ℕ, ns + n ≤ ne + 1 → ∃ g g', src (ns + n) = .handler g ∧ src' (ns + n) = .handler g' ∧
      Pair k x i i' ns ne g g' := by
    intro n
    induction n with
    | zero => intro _; exact ⟨h, h', by simpa using h0, by simpa using h0', P⟩
    | succ n ih =>
      intro hn
      push_cast at hn
      obtain ⟨g, g', s, s', Q⟩ := ih (by omega)
      have := (step _ (by omega) (by omega) g g' s s' Q).1
      push_cast
      rw [← add_assoc]
      exact this
  have all' : ∀ y, ns ≤ y → y ≤ ne + 1 → ∃ g g', src y = .handler g ∧ src' y = .handler g' ∧ Pair k x i i' ns ne g g' := by
    intro y h1 h2
    have := all (y - ns).toNat (by omega)
    rwa [show ns + ((y - ns).toNat : ℤ) = y by omega] at this
  refine ⟨all', fun y h1 h2 => ?_⟩
  obtain ⟨g, g', s, s', Q⟩ := all' y h1 (by omega)
  exact (step y h1 h2 g g' s s' Q).2

/-- Two runs of instances in step end in step. -/
theorem Pair.run_pair {cops : CarbonOps ℝ κ} {tops : ThermalOps ℝ τ} {tops' : ThermalOps ℝ τ'} {d d' d1 d1' : Driver ℝ κ}
    {p : RunPams ℝ} {p' : RunPams ℝ} {t : τ} {t' : τ'} (P : Pair k x i i' d.nystart d.nyend h h') (hd : d.source = .handler h)
    (hd' : d'.source = .handler h') (hns : d'.nystart = d.nystart) (hne : d'.nyend = d.nyend) (hluc : d'.luc = d.luc)
    (hsun : d'.sun = d.sun) (hj : "just_one" ∉ Dict.keys (p.emiconc.getD [])) (hp : p'.emiconc = p.emiconc)
    (hp' : p'.carbon = p.carbon) (e : Driver.run cops tops d p = .ok (d1, t)) (e' : Driver.run cops tops' d' p' = .ok (d1', t')) :
    ∃ g g', d1.source = .handler g ∧ d1'.source = .handler g' ∧ Pair k x i i' d.nystart d.nyend g g' := by
  obtain ⟨tr, T⟩ := run_trace e
  obtain ⟨tr', T'⟩ := run_trace e'
  obtain ⟨H, hr, hH, -⟩ := handler_trace T hd
  obtain ⟨H', hr', hH', -⟩ := handler_trace T' hd'
  rw [hp, hp', hns] at hr'
  have hle : d.nystart ≤ d.nyend + 1 := by
    have := (initialise_spec (startRun_spec T.start).1).1; omega
  have Q := P.reset hj hr hr'
  have F : ∀ y, ∃ f, d.nystart ≤ y → y ≤ d.nyend →
      yearForcing cops d (tr y).source (tr y).values y = .ok (f, (tr (y + 1)).source) := by
    intro y
    by_cases h1 : d.nystart ≤ y ∧ y ≤ d.nyend
    · obtain ⟨f, vn, vs, values, a1, -⟩ := yearStep_spec (T.step y h1.1 h1.2)
      exact ⟨f, fun _ _ => a1⟩
    · exact ⟨⟨0, 0, 0, 0⟩, fun a b => absurd ⟨a, b⟩ h1⟩
  have F' : ∀ y, ∃ f, d.nystart ≤ y → y ≤ d.nyend →
      yearForcing cops d' (tr' y).source (tr' y).values y = .ok (f, (tr' (y + 1)).source) := by
    intro y
    by_cases h1 : d.nystart ≤ y ∧ y ≤ d.nyend
    · obtain ⟨f, vn, vs, values, a1, -⟩ := yearStep_spec (T'.step y (by omega) (by omega))
      exact ⟨f, fun _ _ => a1⟩
    · exact ⟨⟨0, 0, 0, 0⟩, fun a b => absurd ⟨a, b⟩ h1⟩
  choose f hf using F
  choose f' hf' using F'
  obtain ⟨all, -⟩ := Q.chain rfl hns hluc hsun (src := fun y => (tr y).source) (src' := fun y => (tr' y).source)
    (hH _ le_rfl hle) (by simpa [hns] using hH' d'.nystart le_rfl (by omega)) hf hf'
  obtain ⟨g, g', s, s', R⟩ := all (d.nyend + 1) hle le_rfl
  refine ⟨g, g', ?_, ?_, R⟩
  · rw [T.last.1]; exact s
  · rw [T'.last.1, hne]; exact s'

end

end Verif.Lemmas.OneGas
