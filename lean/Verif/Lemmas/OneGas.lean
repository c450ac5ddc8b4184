import Verif.Spec.OneGas
import Verif.Lemmas.AgreeRun
import Verif.Lemmas.Frame
import Verif.Lemmas.Perturb
import Verif.Lemmas.Precalc
import Verif.Lemmas.RunHandler
import Verif.Lemmas.Pams
import Verif.Props.C81
import Verif.Props.C59
import Mathlib.Tactic.Ring
import Mathlib.Tactic.Linarith

/-!
# Concentration-driven runs that differ in one gas computed ahead
-/

namespace Verif.Lemmas.OneGas
open Verif.Py Verif.Py.Dict Verif.Model Verif.Model.Handler Verif.Model.Driver Verif.Spec Verif.Props

variable {κ : Type}

/-- `h'` is `h` with other concentrations of `k` and another table of the gases computed ahead; the forcing arrays may differ
in the total only. -/
structure Beside (k : String) (h h' : Handler ℝ κ) : Prop where
  eq : h' = { h with concIn := h'.concIn, prec := h'.prec, forc := h'.forc }
  cols : h'.concIn.cols = h.concIn.cols
  idx : h'.concIn.idx = h.concIn.idx
  cell : ∀ c, c ≠ k → ∀ y, h'.concIn.cell c y = h.concIn.cell c y
  forc : ∀ t, t ≠ "Total_forcing" → h'.forc t = h.forc t
  free : k ∉ h.concKeys
  methane : k ≠ "CH4"

theorem Beside.at {k : String} {h h' : Handler ℝ κ} (b : Beside k h h') {c : String} (hc : c ≠ k) (y : ℤ) :
    h'.concIn.at' c y = h.concIn.at' c y := by
  unfold Frame.at'
  rw [b.cols, b.idx, b.cell c hc]

section
variable {k : String} {h h' : Handler ℝ κ} (b : Beside k h h')
include b

theorem Beside.gas : h'.gas = h.gas := by rw [b.eq]
theorem Beside.emis : h'.emis = h.emis := by rw [b.eq]
theorem Beside.pam : h'.pam = h.pam := by rw [b.eq]
theorem Beside.pert : h'.pert = h.pert := by rw [b.eq]
theorem Beside.years : h'.years = h.years := by rw [b.eq]
theorem Beside.concKeys : h'.concKeys = h.concKeys := by rw [b.eq]
theorem Beside.forcKeys : h'.forcKeys = h.forcKeys := by rw [b.eq]
theorem Beside.conc : h'.conc = h.conc := by rw [b.eq]
theorem Beside.y0 : h'.y0 = h.y0 := by unfold Handler.y0; rw [b.years]
theorem Beside.index (yr : ℤ) : h'.index yr = h.index yr := by unfold Handler.index; rw [b.y0, b.years]
theorem Beside.gasAt (t : String) : h'.gasAt t = h.gasAt t := by unfold Handler.gasAt; rw [b.gas]
theorem Beside.concAt (t : String) (y : ℤ) : h'.concAt t y = h.concAt t y := by
  unfold Handler.concAt; rw [b.concKeys, b.conc]

theorem Beside.setConc (t : String) (y : ℤ) (v : ℝ) : Beside k (h.setConc t y v) (h'.setConc t y v) where
  eq := by
    have e := b.eq
    conv_lhs => rw [e]
    rfl
  cols := b.cols
  idx := b.idx
  cell := b.cell
  forc := b.forc
  free := b.free
  methane := b.methane

end

/-- Filling a row of concentrations. -/
theorem fill_fold {k : String} {yr : ℤ} {avoid : List String} : ∀ {ts : List String} {h h' g : Handler ℝ κ}, Beside k h h' →
    k ∉ ts → ts.foldlM (fillStep yr avoid) h = .ok g → ∃ g', ts.foldlM (fillStep yr avoid) h' = .ok g' ∧ Beside k g g' ∧
      g'.prec = h'.prec ∧ g'.concIn = h'.concIn ∧ g.prec = h.prec ∧ g.concIn = h.concIn ∧ g.pam = h.pam
  | [], h, h', g, b, _, e => by
    rw [foldlM_nil_ok] at e
    subst e
    exact ⟨h', foldlM_nil_ok.2 rfl, b, rfl, rfl, rfl, rfl, rfl⟩
  | t :: ts, h, h', g, b, hk, e => by
    rw [foldlM_cons_ok] at e
    obtain ⟨m, e1, e2⟩ := e
    have ht : t ≠ k := fun e => hk (e ▸ List.mem_cons_self)
    have step : ∃ m', fillStep yr avoid h' t = .ok m' ∧ Beside k m m' ∧ m'.prec = h'.prec ∧ m'.concIn = h'.concIn ∧
        m.prec = h.prec ∧ m.concIn = h.concIn ∧ m.pam = h.pam := by
      unfold fillStep at e1 ⊢
      by_cases h1 : t ∈ avoid
      · rw [if_pos h1] at e1 ⊢
        rw [Except.ok.injEq] at e1
        subst e1
        exact ⟨_, rfl, b, rfl, rfl, rfl, rfl, rfl⟩
      · rw [if_neg h1] at e1 ⊢
        rw [b.cols]
        by_cases h2 : t ∈ h.concIn.cols
        · rw [if_pos h2, bind_eq_ok] at e1
          obtain ⟨v, hv, e1⟩ := e1
          rw [pure_ok, Except.ok.injEq] at e1
          subst e1
          rw [if_pos h2, b.at ht, hv]
          exact ⟨_, rfl, b.setConc _ _ _, rfl, rfl, rfl, rfl, rfl⟩
        · rw [if_neg h2, Except.ok.injEq] at e1
          subst e1
          rw [if_neg h2]
          exact ⟨_, rfl, b.setConc _ _ _, rfl, rfl, rfl, rfl, rfl⟩
    obtain ⟨m', e1', bm, p1, p2, p3, p4, p5⟩ := step
    obtain ⟨g', e2', bg, q1, q2, q3, q4, q5⟩ := fill_fold bm (fun hm => hk (List.mem_cons_of_mem _ hm)) e2
    exact ⟨g', foldlM_cons_ok.2 ⟨m', e1', e2'⟩, bg, q1.trans p1, q2.trans p2, q3.trans p3, q4.trans p4, q5.trans p5⟩

/-- `emi2conc` of a concentration-driven run. -/
theorem emi_beside {cops : CarbonOps ℝ κ} {k : String} {h h' g : Handler ℝ κ} {yr : ℤ} {fb fb' : Option (Dict ℝ)}
    (b : Beside k h h') (hrun : pamB h.pam "conc_run" = .ok true) (e : emi2conc cops h yr fb = .ok g) :
    ∃ g', emi2conc cops h' yr fb' = .ok g' ∧ Beside k g g' ∧ g'.prec = h'.prec ∧ g'.concIn = h'.concIn ∧
      g.prec = h.prec ∧ g.concIn = h.concIn ∧ g.pam = h.pam := by
  unfold emi2conc at e ⊢
  rw [b.pam, hrun]
  rw [hrun] at e
  have e' : fillOneRow h yr [] = .ok g := e
  show ∃ g', fillOneRow h' yr [] = .ok g' ∧ _
  unfold fillOneRow at e' ⊢
  rw [b.concKeys]
  exact fill_fold b b.free e'

/-! ## The forcing of a year -/

/-- The same up to a shift of the three sums and the array of totals. -/
structure Shift (x : ℝ) (a a' : Acc ℝ) : Prop where
  tot : a'.tot = a.tot + x
  nh : a'.nh = a.nh + x
  sh : a'.sh = a.sh + x
  aero : a'.aero = a.aero
  conc : a'.conc = a.conc
  forc : ∀ t, t ≠ "Total_forcing" → a'.forc t = a.forc t

theorem setForc_off {f f' : String → ℕ → ℝ} (h : ∀ t, t ≠ "Total_forcing" → f' t = f t) (s : String) (i : ℕ) (v : ℝ) :
    ∀ t, t ≠ "Total_forcing" → setForc f' s i v t = setForc f s i v t := by
  intro t ht
  funext j
  unfold setForc
  rw [h t ht]

theorem hem_shift (t : String) (q nh sh x : ℝ) : hemisphericForcing t q (nh + x) (sh + x) =
    ((hemisphericForcing t q nh sh).1 + x, (hemisphericForcing t q nh sh).2 + x) := by
  unfold hemisphericForcing
  split
  · exact Prod.ext (add_right_comm _ _ _) (add_right_comm _ _ _)
  · split
    · exact Prod.ext (add_right_comm _ _ _) (add_right_comm _ _ _)
    · split
      · exact Prod.ext (add_right_comm _ _ _) (add_right_comm _ _ _)
      · exact Prod.ext (add_right_comm _ _ _) (add_right_comm _ _ _)

section
variable {k : String} {h h' : Handler ℝ κ} (b : Beside k h h')
include b

theorem three_shift {yr : ℤ} {a : Acc ℝ} (e : threeMain h yr = .ok a) : ∃ a', threeMain h' yr = .ok a' ∧ Shift 0 a a' := by
  unfold threeMain at e ⊢
  simp only [b.y0, b.concAt, b.gasAt, b.index, b.forcKeys, b.conc]
  simp only [bind_eq_ok] at e ⊢
  obtain ⟨y0, e1, n0, e2, n, e3, c0, e4, c, e5, m0, e6, m, e7, gc, e8, gn, e9, gm, e10, i, e11, u, e12, v, e13, w, e14, e⟩ := e
  rw [pure_ok, Except.ok.injEq] at e
  subst e
  refine ⟨_, ⟨y0, e1, n0, e2, n, e3, c0, e4, c, e5, m0, e6, m, e7, gc, e8, gn, e9, gm, e10, i, e11, u, e12, v, e13, w, e14,
    rfl⟩, ?_⟩
  exact ⟨by simp, by simp, by simp, rfl, rfl, setForc_off (setForc_off (setForc_off b.forc _ _ _) _ _ _) _ _ _⟩

theorem Beside.accConc {a a' : Acc ℝ} (hc : a'.conc = a.conc) (t : String) (y : ℤ) :
    accConc h' a' t y = accConc h a t y := by
  unfold Handler.accConc Handler.concAt
  simp only [b.concKeys, hc]

theorem tracer_shift {yr : ℤ} {luc : ℝ} {a a' : Acc ℝ} {i : ℕ} {t : String} (s : Shift 0 a a') :
    tracerForcing h' yr luc a' i t = tracerForcing h yr luc a i t := by
  have ha : aerosolForcing h' yr t = aerosolForcing h yr t := by
    unfold aerosolForcing
    rw [b.y0, b.gasAt, b.emis, b.pam]
  have hal : hasAlpha h' t = hasAlpha h t := by unfold hasAlpha; rw [b.gas]
  have ho : tropO3Forcing h' a' yr = tropO3Forcing h a yr := by
    have hoc : tropO3Conc h' a' yr = tropO3Conc h a yr := by
      unfold tropO3Conc
      rw [b.pam, b.emis]
      simp only [b.accConc s.conc, b.at (Ne.symm b.methane)]
    have hx : ∀ c t y, Handler.accConc h' { a' with conc := c } t y = Handler.accConc h { a with conc := c } t y :=
      fun c t y => b.accConc rfl t y
    unfold tropO3Forcing
    simp only [hoc, b.y0, b.concKeys, b.pam, s.conc, hx]
  unfold tracerForcing
  rw [ha, hal, ho, s.conc, b.y0, b.gasAt, b.pam, s.forc "CH4" (by decide), b.accConc s.conc]
  simp only [b.accConc s.conc]

theorem loop_shift {yr : ℤ} {luc : ℝ} {i : ℕ} : ∀ {ts : List String} {a a' c : Acc ℝ}, Shift 0 a a' →
    ts.foldlM (forcStep h yr luc i) a = .ok c → ∃ c', ts.foldlM (forcStep h' yr luc i) a' = .ok c' ∧ Shift 0 c c'
  | [], a, a', c, s, e => by
    rw [foldlM_nil_ok] at e
    subst e
    exact ⟨a', foldlM_nil_ok.2 rfl, s⟩
  | t :: ts, a, a', c, s, e => by
    rw [foldlM_cons_ok] at e
    obtain ⟨m, e1, e2⟩ := e
    have step : ∃ m', forcStep h' yr luc i a' t = .ok m' ∧ Shift 0 m m' := by
      unfold forcStep at e1 ⊢
      by_cases h1 : t ∈ ["CO2", "N2O", "CH4"]
      · rw [if_pos h1, Except.ok.injEq] at e1
        subst e1
        rw [if_pos h1]
        exact ⟨_, rfl, s⟩
      · rw [if_neg h1, bind_eq_ok] at e1
        obtain ⟨r, hr, e1⟩ := e1
        rw [pure_ok, Except.ok.injEq] at e1
        subst e1
        rw [if_neg h1, tracer_shift b s, hr]
        refine ⟨_, rfl, ?_⟩
        have s1 := s.tot
        have s2 := s.nh
        have s3 := s.sh
        rw [add_zero] at s1 s2 s3
        exact ⟨by simp [s1], by simp [s2, s3], by simp [s2, s3], by simp only [s.aero], rfl, setForc_off s.forc _ _ _⟩
    obtain ⟨m', e1', sm⟩ := step
    obtain ⟨c', e2', sc⟩ := loop_shift sm e2
    exact ⟨c', foldlM_cons_ok.2 ⟨m', e1', e2'⟩, sc⟩

omit b in
theorem pert_fold {keys : List String} {i : ℕ} {x : ℝ} : ∀ (rows : List (PertRow ℝ)) {s s' : ForcAcc ℝ},
    s'.tot = s.tot + x → s'.nh = s.nh + x → s'.sh = s.sh + x → (∀ t, t ≠ "Total_forcing" → s'.forc t = s.forc t) →
    (rows.foldl (addForcingPertStep keys i) s').tot = (rows.foldl (addForcingPertStep keys i) s).tot + x ∧
    (rows.foldl (addForcingPertStep keys i) s').nh = (rows.foldl (addForcingPertStep keys i) s).nh + x ∧
    (rows.foldl (addForcingPertStep keys i) s').sh = (rows.foldl (addForcingPertStep keys i) s).sh + x ∧
    ∀ t, t ≠ "Total_forcing" → (rows.foldl (addForcingPertStep keys i) s').forc t =
      (rows.foldl (addForcingPertStep keys i) s).forc t
  | [], _, _, h1, h2, h3, h4 => ⟨h1, h2, h3, h4⟩
  | r :: rows, s, s', h1, h2, h3, h4 => by
    rw [List.foldl_cons, List.foldl_cons]
    apply pert_fold rows
    all_goals unfold addForcingPertStep; by_cases hr : r.component ∉ keys
    all_goals simp only [if_pos hr, if_neg hr]
    · exact h1
    · rw [h1]; ring
    · exact h2
    · rw [h2, h3, hem_shift]
    · exact h3
    · rw [h2, h3, hem_shift]
    · exact h4
    · intro t ht
      funext j
      unfold setForc
      by_cases hc : t = r.component ∧ j = i
      · rw [if_pos hc, if_pos hc, h4 r.component (hc.1 ▸ ht)]
      · rw [if_neg hc, if_neg hc, h4 t ht]

theorem pert_shift {y0 yr : ℤ} {x : ℝ} {a a' : Acc ℝ} (s : Shift x a a') : Shift x (addPert h y0 yr a) (addPert h' y0 yr a') := by
  unfold addPert
  rw [b.pert, b.forcKeys]
  cases h.pert with
  | none => exact s
  | some rows =>
    obtain ⟨c1, c2, c3, c4⟩ := pert_fold (keys := h.forcKeys) (i := (yr - y0).toNat) (x := x)
      (rows.filter (fun r => r.year = yr)) (s := ⟨a.tot, a.nh, a.sh, a.forc⟩) (s' := ⟨a'.tot, a'.nh, a'.sh, a'.forc⟩)
      s.tot s.nh s.sh s.forc
    exact ⟨c1, c2, c3, s.aero, s.conc, c4⟩

/-- The forcing of a year: everything is shifted by the difference of the sums of the gases computed ahead. -/
theorem forc_shift {yr : ℤ} {luc sun v v' : ℝ} {r : ForcResult ℝ} {g : Handler ℝ κ} (hj : h.pam.get? "just_one" = none)
    (hv : totVanilla h.prec yr = .ok v) (hv' : totVanilla h'.prec yr = .ok v')
    (e : conc2forc h yr luc sun = .ok (r, g)) : ∃ r' g', conc2forc h' yr luc sun = .ok (r', g') ∧ Beside k g g' ∧
      g'.prec = h'.prec ∧ g'.concIn = h'.concIn ∧ g.prec = h.prec ∧ g.concIn = h.concIn ∧ g.pam = h.pam ∧
      r'.tot = r.tot + (v' - v) ∧ r'.nh = r.nh + (v' - v) ∧ r'.sh = r.sh + (v' - v) ∧ r'.wAero = r.wAero ∧
      ∃ i, h.index yr = .ok i ∧ g.forc "Total_forcing" i = r.tot ∧ g'.forc "Total_forcing" i = r'.tot := by
  unfold conc2forc at e
  simp only [bind_eq_ok] at e
  obtain ⟨a1, e1, y0, e2, i, e3, a2, e4, a3, e5, a4, e6, e7⟩ := e
  rw [pure_ok, Except.ok.injEq] at e7
  obtain ⟨a1', e1', s1⟩ := three_shift b e1
  obtain ⟨a2', e4', s2⟩ := loop_shift b s1 e4
  unfold addVanilla at e5
  rw [bind_eq_ok] at e5
  obtain ⟨w, hw, e5⟩ := e5
  rw [hv, Except.ok.injEq] at hw
  subst hw
  rw [pure_ok, Except.ok.injEq] at e5
  have e5' : addVanilla h' yr a2' = .ok { a2' with tot := a2'.tot + v', nh := a2'.nh + v', sh := a2'.sh + v' } := by
    unfold addVanilla
    rw [hv']
    rfl
  have s3 : Shift (v' - v) a3 { a2' with tot := a2'.tot + v', nh := a2'.nh + v', sh := a2'.sh + v' } := by
    rw [← e5]
    refine ⟨?_, ?_, ?_, s2.aero, s2.conc, s2.forc⟩
    · simp only [s2.tot]; ring
    · simp only [s2.nh]; ring
    · simp only [s2.sh]; ring
  have s4 := pert_shift b (y0 := y0) (yr := yr) s3
  unfold applyJustOne at e6
  rw [hj] at e6
  simp only [Except.ok.injEq] at e6
  rw [e6] at s4
  have e6' : applyJustOne h' i (addPert h' y0 yr { a2' with tot := a2'.tot + v', nh := a2'.nh + v', sh := a2'.sh + v' }) =
      .ok (addPert h' y0 yr { a2' with tot := a2'.tot + v', nh := a2'.nh + v', sh := a2'.sh + v' }) := by
    unfold applyJustOne
    rw [b.pam, hj]
  generalize hA : addPert h' y0 yr { a2' with tot := a2'.tot + v', nh := a2'.nh + v', sh := a2'.sh + v' } = A at s4 e6'
  refine ⟨(finishForc h' i sun A).1, (finishForc h' i sun A).2, ?_, ?_⟩
  · unfold conc2forc
    rw [e1', b.y0, e2, b.index, e3, b.forcKeys]
    simp only [bind_ok]
    rw [e4']
    simp only [bind_ok]
    rw [e5']
    simp only [bind_ok]
    rw [hA, e6']
    rfl
  · have er : r = (finishForc h i sun a4).1 := by rw [e7]
    have eg : g = (finishForc h i sun a4).2 := by rw [e7]
    subst er eg
    have hoff := setForc_off s4.forc "Total_forcing" i A.tot
    have hoff' : ∀ t, t ≠ "Total_forcing" → setForc A.forc "Total_forcing" i A.tot t =
        setForc a4.forc "Total_forcing" i a4.tot t := by
      intro t ht
      funext j
      unfold setForc
      rw [if_neg (fun hc => ht hc.1), if_neg (fun hc => ht hc.1), s4.forc t ht]
    refine ⟨?_, rfl, rfl, rfl, rfl, rfl, s4.tot, ?_, ?_, ?_, i, e3, ?_, ?_⟩
    · refine ⟨?_, b.cols, b.idx, b.cell, hoff', b.free, b.methane⟩
      have e := b.eq
      unfold finishForc
      simp only [s4.conc]
      conv_lhs => rw [e]
    · simp only [finishForc, s4.nh]; ring
    · simp only [finishForc, s4.sh]; ring
    · simp only [finishForc, s4.aero, b.forcKeys]
      have : ((h.forcKeys.filter (fun k => k ≠ "Total_forcing")).map
          (fun k => MathFn.abs (setForc A.forc "Total_forcing" i A.tot k i))) =
        ((h.forcKeys.filter (fun k => k ≠ "Total_forcing")).map
          (fun k => MathFn.abs (setForc a4.forc "Total_forcing" i a4.tot k i))) := by
        apply List.map_congr_left
        intro t ht
        rw [hoff' t (by simpa using (List.mem_filter.1 ht).2)]
      rw [this]
    · simp [finishForc, setForc]
    · simp [finishForc, setForc]

end

/-! ## The gases computed ahead -/

/-- The prescribed concentrations of the run years. -/
def concRows (t : Frame ℝ) (ns ne : ℤ) : List (Row ℝ) := (pyRange ns (ne + 1)).map (fun y => (y, fun c => t.cell c y))

/-- The forcing of the gases computed ahead, before perturbations. -/
noncomputable def aheadTable (gas : Dict (Gas ℝ)) (t : Frame ℝ) (gases : List String) (strat : List ℝ) (ns ne : ℤ) : Table ℝ :=
  { cols := if "STRAT_O3" ∈ gases then gases else gases ++ ["STRAT_O3"]
    val := fun c y => if ns ≤ y ∧ y < ne + 1 then some (if c = "STRAT_O3" then strat.getD (y - ns).toNat 0.0 else
      (gasOr gas c).sarf * (gasOr gas c).alpha * (t.cell c y - t.cell c ns)) else none }

theorem prec_form {gas : Dict (Gas ℝ)} {concIn emis : Frame ℝ} {pam : Dict (PyVal ℝ)} {pert : Option (List (PertRow ℝ))}
    {ns es ne : ℤ} {cl br : Dict Int} {p : Precalc ℝ} (hrun : pamB pam "conc_run" = .ok true)
    (hc : RunTables concIn emis pam ns es ne)
    (e : precalculate gas concIn emis pam pert (pyRange ns (ne + 1)) cl br = .ok p) :
    ∃ so3 strat, vanillaGases gas = .ok p.gases ∧ p.conc = concRows concIn ns ne ∧ gas.getE "STRAT_O3" = .ok so3 ∧
      stratO3Series cl br p.gases (concRows concIn ns ne) (pyRange ns (ne + 1)) so3.sarf = .ok strat ∧
      addForcingPertVanilla (pert.getD []) (aheadTable gas concIn p.gases strat ns ne) = .ok p.erf ∧
      p.spicy = gas.keys.filter (fun g => g ∉ (if "STRAT_O3" ∈ p.gases then p.gases else p.gases ++ ["STRAT_O3"])) := by
  unfold precalculate at e
  simp only [bind_eq_ok] at e
  obtain ⟨gases, hg, conc, hconc, erf0, herf, so3, hso3, strat, hstrat, rows, hadd, erf, hpert, hp⟩ := e
  rw [pure_ok, Except.ok.injEq] at hp
  subst hp
  have hcr : conc = concRows concIn ns ne := by
    rw [(precalcConc_rows hconc hrun hc).1]
    unfold concRows preSeries
    simp
  subst hcr
  refine ⟨so3, strat, hg, rfl, hso3, hstrat, ?_, rfl⟩
  have hne : ns < ne + 1 := by have := hc.nonempty; omega
  unfold concRows at herf
  rw [precalcErf_years hne (fun c y => concIn.cell c y), Except.ok.injEq] at herf
  subst herf
  unfold addColumn at hadd
  split at hadd
  · rename_i hlen
    rw [Except.ok.injEq] at hadd
    rw [List.length_map, pyRange_length] at hlen
    rw [zipWith_years _ _ 0.0 _ _ _ hlen.symm] at hadd
    subst hadd
    rw [← hpert]
    congr 1
    unfold aheadTable rowsTable
    congr 1
    funext c y
    rw [lookup_map_pyRange (fun y c => if c = "STRAT_O3" then strat.getD (y - ns).toNat 0.0
        else (gasOr gas c).sarf * (gasOr gas c).alpha * (concIn.cell c y - concIn.cell c ns))]
    split <;> rfl
  · cases hadd

theorem rowAt_concRows {gases : List String} {t : Frame ℝ} {ns ne : ℤ} (c : String) (y : ℤ) :
    rowAt gases (concRows t ns ne) c y = if c ∈ gases then (if ns ≤ y ∧ y < ne + 1 then .ok (t.cell c y) else .error .keyError)
      else .error .keyError := by
  unfold rowAt concRows
  rw [lookup_map_pyRange (fun y c => t.cell c y)]
  split
  · split
    · rename_i h
      split at h
      · rename_i h'
        rw [if_pos h']
        simp only [Option.some.injEq] at h
        rw [← h]
      · cases h
    · rename_i h
      split at h
      · cases h
      · rename_i h'
        rw [if_neg h']
  · rfl

theorem mapM_congr' {α β : Type} {f g : α → Except PyErr β} : ∀ {l : List α}, (∀ a ∈ l, f a = g a) → l.mapM f = l.mapM g
  | [], _ => rfl
  | a :: l, h => by
    rw [List.mapM_cons, List.mapM_cons, h a List.mem_cons_self, mapM_congr' fun b hb => h b (List.mem_cons_of_mem _ hb)]

theorem mapM_some {α : Type} {f : α → Option ℝ} : ∀ {l : List α}, (∀ a ∈ l, ∃ v, f a = some v) →
    l.mapM f = some (l.map fun a => (f a).getD 0)
  | [], _ => rfl
  | a :: l, h => by
    obtain ⟨v, hv⟩ := h a List.mem_cons_self
    rw [List.mapM_cons, mapM_some fun b hb => h b (List.mem_cons_of_mem _ hb), hv]
    simp [hv]

theorem strat_same {gases : List String} {t t' : Frame ℝ} {ns ne : ℤ} {cl br : Dict Int} {k : String}
    (hcl : k ∉ cl.keys) (hbr : k ∉ br.keys) (ho : ∀ c, c ≠ k → ∀ y, t'.cell c y = t.cell c y) (sarf : ℝ) :
    stratO3Series cl br gases (concRows t' ns ne) (pyRange ns (ne + 1)) sarf =
      stratO3Series cl br gases (concRows t ns ne) (pyRange ns (ne + 1)) sarf := by
  have hrow : ∀ c, c ≠ k → ∀ y, rowAt gases (concRows t' ns ne) c y = rowAt gases (concRows t ns ne) c y := by
    intro c hc y
    rw [rowAt_concRows, rowAt_concRows, ho c hc]
  have key : ∀ y0 y, stratQuantities cl br gases (concRows t' ns ne) y0 y = stratQuantities cl br gases (concRows t ns ne) y0 y := by
    intro y0 y
    have h1 : cl.mapM (clTerm gases (concRows t' ns ne) y0 y) = cl.mapM (clTerm gases (concRows t ns ne) y0 y) := by
      apply mapM_congr'
      intro g hg
      have : g.1 ≠ k := fun e => hcl (e ▸ List.mem_map_of_mem hg)
      unfold clTerm
      rw [hrow _ this, hrow _ this]
    have h2 : br.mapM (brTerm gases (concRows t' ns ne) y0 y) = br.mapM (brTerm gases (concRows t ns ne) y0 y) := by
      apply mapM_congr'
      intro g hg
      have : g.1 ≠ k := fun e => hbr (e ▸ List.mem_map_of_mem hg)
      unfold brTerm
      rw [hrow _ this, hrow _ this]
    unfold stratQuantities
    rw [h1, h2]
  have key' : ∀ y0, stratQuantities cl br gases (concRows t' ns ne) y0 = stratQuantities cl br gases (concRows t ns ne) y0 :=
    fun y0 => funext (key y0)
  unfold stratO3Series
  simp only [key']

/-- The two tables of the gases computed ahead differ by the effect of the gas. -/
theorem prec_shift {gas : Dict (Gas ℝ)} {t t' emis : Frame ℝ} {pam : Dict (PyVal ℝ)} {pert : Option (List (PertRow ℝ))}
    {ns es ne : ℤ} {cl br : Dict Int} {p p' : Precalc ℝ} {k : String} {x : Gas ℝ} (hrun : pamB pam "conc_run" = .ok true)
    (hc : RunTables t emis pam ns es ne) (hc' : RunTables t' emis pam ns es ne) (hgas : gas.keys.Nodup)
    (hx : PlainGas gas k x) (hcl : k ∉ cl.keys) (hbr : k ∉ br.keys) (ho : ∀ c, c ≠ k → ∀ y, t'.cell c y = t.cell c y)
    (e : precalculate gas t emis pam pert (pyRange ns (ne + 1)) cl br = .ok p)
    (e' : precalculate gas t' emis pam pert (pyRange ns (ne + 1)) cl br = .ok p') :
    p'.gases = p.gases ∧ p'.spicy = p.spicy ∧ p'.erf.cols = p.erf.cols ∧ p.erf.cols.Nodup ∧ k ∈ p.gases ∧ k ∈ p.erf.cols ∧
      k ∉ p.spicy ∧ p.conc = concRows t ns ne ∧ p'.conc = concRows t' ns ne ∧
      ∀ c ∈ p.erf.cols, ∀ y, ns ≤ y → y ≤ ne → ∃ v, p.erf.val c y = some v ∧
        p'.erf.val c y = some (if c = k then v + gasEffect x (t.cell k) (t'.cell k) ns y else v) := by
  obtain ⟨so3, strat, g1, c1, s1, z1, a1, sp1⟩ := prec_form hrun hc e
  obtain ⟨so3', strat', g2, c2, s2, z2, a2, sp2⟩ := prec_form hrun hc' e'
  have hg : p'.gases = p.gases := by rw [g1, Except.ok.injEq] at g2; exact g2.symm
  rw [s1, Except.ok.injEq] at s2
  subst s2
  rw [hg, strat_same hcl hbr ho, z1, Except.ok.injEq] at z2
  subst z2
  rw [hg] at a2 sp2
  have hmem : k ∈ p.gases := (mem_vanilla hgas g1 k).2 ⟨x, hx.row, hx.unit, hx.notMain⟩
  have hnd : (aheadTable gas t p.gases strat ns ne).cols.Nodup := by
    have : p.gases.Nodup := by
      unfold vanillaGases at g1
      split at g1
      · rw [Except.ok.injEq] at g1
        rw [← g1]
        exact (List.filter_sublist.map Prod.fst).nodup hgas
      · cases g1
    unfold aheadTable
    simp only
    split
    · exact this
    · rename_i h3
      rw [List.nodup_append]
      exact ⟨this, by simp, fun a ha b hb => by
        rw [List.mem_singleton] at hb
        subst hb
        exact fun e => h3 (e ▸ ha)⟩
  obtain ⟨q1, q2⟩ := vanilla_ok hnd a1
  obtain ⟨r1, r2⟩ := vanilla_ok (t := aheadTable gas t' p.gases strat ns ne) hnd a2
  have hkc : k ∈ (if "STRAT_O3" ∈ p.gases then p.gases else p.gases ++ ["STRAT_O3"]) := by
    split
    · exact hmem
    · exact List.mem_append_left _ hmem
  refine ⟨hg, by rw [sp1, sp2], by rw [q1, r1]; rfl, by rw [q1]; exact hnd, hmem, by rw [q1]; exact hkc, ?_, c1, c2, ?_⟩
  · rw [sp1]
    intro h
    have := (List.mem_filter.1 h).2
    simp only [decide_eq_true_eq] at this
    exact this hkc
  · intro c hcm y hy1 hy2
    rw [q1] at hcm
    have w1 := q2 c hcm y
    have w2 := r2 c hcm y
    have hy : ns ≤ y ∧ y < ne + 1 := ⟨hy1, by omega⟩
    have hgo : gasOr gas k = x := by unfold gasOr; rw [hx.row]; rfl
    obtain ⟨v, hv, hv'⟩ : ∃ v, (aheadTable gas t p.gases strat ns ne).val c y = some v ∧
        (aheadTable gas t' p.gases strat ns ne).val c y =
          some (if c = k then v + gasEffect x (t.cell k) (t'.cell k) ns y else v) := by
      refine ⟨_, if_pos hy, ?_⟩
      unfold aheadTable
      simp only [if_pos hy]
      by_cases hck : c = k
      · subst hck
        rw [if_neg hx.notOzone, if_neg hx.notOzone, if_pos rfl, hgo]
        unfold gasEffect
        congr 1
        ring
      · rw [if_neg hck, ho c hck, ho c hck]
    rw [hv] at w1
    rw [hv'] at w2
    cases hl : (List.filter (fun r => decide (r.component = c ∧ r.year = y)) (pert.getD [])).getLast? with
    | none =>
      rw [hl] at w1 w2
      exact ⟨v, w1, w2⟩
    | some r =>
      rw [hl] at w1 w2
      refine ⟨v + r.value, w1, ?_⟩
      rw [w2]
      simp only [Option.map_some, Option.some.injEq]
      split <;> ring

theorem sum_one {k : String} {z : ℝ} {f f' : String → ℝ} : ∀ {cols : List String}, cols.Nodup → k ∈ cols →
    (∀ c ∈ cols, f' c = if c = k then f c + z else f c) → (cols.map f').sum = (cols.map f).sum + z
  | [], _, h, _ => by cases h
  | c :: cols, hn, hk, h => by
    rw [List.nodup_cons] at hn
    simp only [List.map_cons, List.sum_cons]
    by_cases hck : c = k
    · have : (cols.map f') = cols.map f := by
        apply List.map_congr_left
        intro c' hc'
        rw [h c' (List.mem_cons_of_mem _ hc'), if_neg]
        rintro rfl
        exact hn.1 (hck ▸ hc')
      rw [this, h c List.mem_cons_self, if_pos hck]
      ring
    · rw [sum_one hn.2 (List.mem_of_ne_of_mem (Ne.symm hck) hk) (fun c' hc' => h c' (List.mem_cons_of_mem _ hc')),
        h c List.mem_cons_self, if_neg hck]
      ring

/-- The sum of the gases computed ahead. -/
theorem tot_shift {p p' : Precalc ℝ} {k : String} {y : ℤ} {z : ℝ} (hn : p.erf.cols.Nodup) (hk : k ∈ p.erf.cols)
    (hcols : p'.erf.cols = p.erf.cols)
    (h : ∀ c ∈ p.erf.cols, ∃ v, p.erf.val c y = some v ∧ p'.erf.val c y = some (if c = k then v + z else v)) :
    ∃ v, totVanilla p y = .ok v ∧ totVanilla p' y = .ok (v + z) := by
  have e1 : p.erf.cols.mapM (fun c => p.erf.val c y) = some (p.erf.cols.map fun c => (p.erf.val c y).getD 0) := by
    apply mapM_some
    intro c hc
    obtain ⟨v, hv, -⟩ := h c hc
    exact ⟨v, hv⟩
  have e2 : p'.erf.cols.mapM (fun c => p'.erf.val c y) = some (p.erf.cols.map fun c => (p'.erf.val c y).getD 0) := by
    rw [hcols]
    apply mapM_some
    intro c hc
    obtain ⟨v, -, hv⟩ := h c hc
    exact ⟨_, hv⟩
  refine ⟨_, by unfold totVanilla; rw [e1], ?_⟩
  unfold totVanilla
  rw [e2]
  simp only [Except.ok.injEq, fsum_eq_sum]
  apply sum_one hn hk
  intro c hc
  obtain ⟨v, hv, hv'⟩ := h c hc
  rw [hv, hv']
  split <;> rfl

end Verif.Lemmas.OneGas
