import Verif.Spec.MoreCo2
import Verif.Lemmas.OneGasRun
import Verif.Props.C60

/-!
# Concentration-driven runs that differ in CO2
-/

namespace Verif.Lemmas.Co2
open Verif.Py Verif.Py.Dict Verif.Model Verif.Model.Handler Verif.Model.Driver Verif.Spec Verif.Props
open Verif.Lemmas.OneGas (hem_shift concRows prec_form strat_same halogen_keys aheadTable)

variable {κ τ τ' : Type}

/-- `h'` is `h` with other concentrations of CO2 and other forcings of CO2, N2O and the total. -/
structure Near (h h' : Handler ℝ κ) : Prop where
  eq : h' = { h with concIn := h'.concIn, conc := h'.conc, forc := h'.forc, prec := h'.prec }
  gases : h'.prec.gases = h.prec.gases
  erf : h'.prec.erf.cols = h.prec.erf.cols ∧ ∀ c ∈ h.prec.erf.cols, ∀ y, h'.prec.erf.val c y = h.prec.erf.val c y
  spicy : h'.prec.spicy = h.prec.spicy
  cols : h'.concIn.cols = h.concIn.cols
  idx : h'.concIn.idx = h.concIn.idx
  cell : ∀ c, c ≠ "CO2" → ∀ y, h'.concIn.cell c y = h.concIn.cell c y
  conc : ∀ c, c ≠ "CO2" → h'.conc c = h.conc c
  forc : ∀ t, t ≠ "CO2" → t ≠ "N2O" → t ≠ "Total_forcing" → h'.forc t = h.forc t

theorem mapM_opt {α : Type} {f g : α → Option ℝ} : ∀ {l : List α}, (∀ a ∈ l, f a = g a) → l.mapM f = l.mapM g
  | [], _ => rfl
  | a :: l, h => by
    rw [List.mapM_cons, List.mapM_cons, h a List.mem_cons_self, mapM_opt fun b hb => h b (List.mem_cons_of_mem _ hb)]

section
variable {h h' : Handler ℝ κ} (b : Near h h')
include b

theorem Near.at {c : String} (hc : c ≠ "CO2") (y : ℤ) : h'.concIn.at' c y = h.concIn.at' c y := by
  unfold Frame.at'
  rw [b.cols, b.idx, b.cell c hc]

theorem Near.gas : h'.gas = h.gas := by rw [b.eq]
theorem Near.emis : h'.emis = h.emis := by rw [b.eq]
theorem Near.pam : h'.pam = h.pam := by rw [b.eq]
theorem Near.pert : h'.pert = h.pert := by rw [b.eq]
theorem Near.tot (y : ℤ) : totVanilla h'.prec y = totVanilla h.prec y := by
  unfold totVanilla
  rw [b.erf.1, mapM_opt fun c hc => b.erf.2 c hc y]
theorem Near.carbon : h'.carbon = h.carbon := by rw [b.eq]
theorem Near.years : h'.years = h.years := by rw [b.eq]
theorem Near.concKeys : h'.concKeys = h.concKeys := by rw [b.eq]
theorem Near.forcKeys : h'.forcKeys = h.forcKeys := by rw [b.eq]
theorem Near.y0 : h'.y0 = h.y0 := by unfold Handler.y0; rw [b.years]
theorem Near.index (yr : ℤ) : h'.index yr = h.index yr := by unfold Handler.index; rw [b.y0, b.years]
theorem Near.gasAt (t : String) : h'.gasAt t = h.gasAt t := by unfold Handler.gasAt; rw [b.gas]
theorem Near.concAt {t : String} (ht : t ≠ "CO2") (y : ℤ) : h'.concAt t y = h.concAt t y := by
  unfold Handler.concAt; rw [b.concKeys, b.conc t ht]

end

/-- Filling a row changes concentrations only. -/
theorem fill_eq {yr : ℤ} {avoid : List String} : ∀ {ts : List String} {h g : Handler ℝ κ},
    ts.foldlM (fillStep yr avoid) h = .ok g → g = { h with conc := g.conc }
  | [], h, g, e => by
    rw [foldlM_nil_ok] at e
    subst e
    rfl
  | t :: ts, h, g, e => by
    obtain ⟨m, e1, e2⟩ := foldlM_cons_ok.1 e
    have i2 := fill_eq e2
    rcases fillStep_spec e1 with ⟨-, rfl⟩ | ⟨-, -, rfl⟩
    · exact i2
    · exact i2

theorem emi_fill {cops : CarbonOps ℝ κ} {h g : Handler ℝ κ} {yr : ℤ} {fb : Option (Dict ℝ)}
    (hrun : pamB h.pam "conc_run" = .ok true) (e : emi2conc cops h yr fb = .ok g) :
    g = { h with conc := g.conc } ∧ ∀ t y, g.conc t y = if y = yr ∧ t ∈ h.concKeys then
      some (if t ∈ h.concIn.cols then h.concIn.cell t yr else 0.0) else h.conc t y := by
  unfold emi2conc at e
  rw [hrun] at e
  have e' : fillOneRow h yr [] = .ok g := e
  obtain ⟨-, -, -, -, c, -⟩ := fillOneRow_spec e'
  exact ⟨fill_eq e', fun t y => by simpa using c t y⟩

theorem Near.emi {cops : CarbonOps ℝ κ} {h h' g g' : Handler ℝ κ} {yr : ℤ} {fb fb' : Option (Dict ℝ)} (b : Near h h')
    (hrun : pamB h.pam "conc_run" = .ok true) (e : emi2conc cops h yr fb = .ok g) (e' : emi2conc cops h' yr fb' = .ok g') :
    Near g g' := by
  obtain ⟨p, q⟩ := emi_fill hrun e
  obtain ⟨p', q'⟩ := emi_fill (by rw [b.pam]; exact hrun) e'
  have hb := b.eq
  refine ⟨?_, ?_, ?_, ?_, ?_, ?_, ?_, ?_, ?_⟩
  · rw [p', p]
    simp only
    conv_lhs => rw [hb]
  · rw [p', p]; exact b.gases
  · rw [p', p]; exact b.erf
  · rw [p', p]; exact b.spicy
  · rw [p', p]; exact b.cols
  · rw [p', p]; exact b.idx
  · rw [p', p]; exact b.cell
  · intro c hc
    funext y
    rw [q', q, b.concKeys, b.cols, b.cell c hc, b.conc c hc]
  · rw [p', p]; exact b.forc

/-! ## The forcing of a year -/

/-- The same up to a shift of the three sums, and what belongs to CO2. -/
structure Shift (x : ℝ) (a a' : Acc ℝ) : Prop where
  tot : a'.tot = a.tot + x
  nh : a'.nh = a.nh + x
  sh : a'.sh = a.sh + x
  conc : ∀ c, c ≠ "CO2" → a'.conc c = a.conc c
  forc : ∀ t, t ≠ "CO2" → t ≠ "N2O" → t ≠ "Total_forcing" → a'.forc t = a.forc t

theorem setForc_off {f f' : String → ℕ → ℝ}
    (h : ∀ t, t ≠ "CO2" → t ≠ "N2O" → t ≠ "Total_forcing" → f' t = f t) (s : String) (i : ℕ) (v v' : ℝ)
    (hv : s = "CO2" ∨ s = "N2O" ∨ s = "Total_forcing" ∨ v' = v) :
    ∀ t, t ≠ "CO2" → t ≠ "N2O" → t ≠ "Total_forcing" → setForc f' s i v' t = setForc f s i v t := by
  intro t h1 h2 h3
  funext j
  unfold setForc
  rw [h t h1 h2 h3]
  split
  · rename_i hs
    rcases hv with e | e | e | e
    · exact absurd (hs.1.trans e) h1
    · exact absurd (hs.1.trans e) h2
    · exact absurd (hs.1.trans e) h3
    · rw [e]
  · rfl

theorem hem_three (q : ℝ) : hemisphericForcing "three_main" q 0.0 0.0 = (q, q) := by
  rw [hemisphericForcing_eq]
  have e : nhWeight "three_main" = 1 := by
    unfold nhWeight
    rw [if_neg (by decide), if_neg (by decide), if_neg (by decide)]
  rw [e]
  norm_num

/-- The concentrations a year of a forcing calculation starts from. -/
structure Reads (h : Handler ℝ κ) (y0 yr : ℤ) (c c0 n n0 m m0 : ℝ) : Prop where
  co2 : h.concAt "CO2" yr = .ok c
  co2' : h.concAt "CO2" y0 = .ok c0
  n2o : h.concAt "N2O" yr = .ok n
  n2o' : h.concAt "N2O" y0 = .ok n0
  ch4 : h.concAt "CH4" yr = .ok m
  ch4' : h.concAt "CH4" y0 = .ok m0

section
variable {h h' : Handler ℝ κ} (b : Near h h')
include b

theorem three_shift {yr : ℤ} {a a' : Acc ℝ} (e : threeMain h yr = .ok a) (e' : threeMain h' yr = .ok a') :
    ∃ y0 c c0 c' c0' n n0 m m0 gc gn i, h.y0 = .ok y0 ∧ Reads h y0 yr c c0 n n0 m m0 ∧ Reads h' y0 yr c' c0' n n0 m m0 ∧
      h.gasAt "CO2" = .ok gc ∧ h.gasAt "N2O" = .ok gn ∧ h.index yr = .ok i ∧
      a.forc "CO2" i = gc.sarf * co2Forcing c c0 n n0 ∧ a'.forc "CO2" i = gc.sarf * co2Forcing c' c0' n n0 ∧
      a.forc "N2O" i = gn.sarf * n2oForcing n n0 c c0 m m0 ∧ a'.forc "N2O" i = gn.sarf * n2oForcing n n0 c' c0' m m0 ∧
      Shift ((gc.sarf * co2Forcing c' c0' n n0 - gc.sarf * co2Forcing c c0 n n0)
        + (gn.sarf * n2oForcing n n0 c' c0' m m0 - gn.sarf * n2oForcing n n0 c c0 m m0)) a a' := by
  unfold threeMain at e e'
  simp only [b.y0, b.gasAt, b.index, b.forcKeys, b.concAt (show "N2O" ≠ "CO2" by decide),
    b.concAt (show "CH4" ≠ "CO2" by decide)] at e'
  simp only [bind_eq_ok] at e e'
  obtain ⟨y0, e1, n0, e2, n, e3, c0, e4, c, e5, m0, e6, m, e7, gc, e8, gn, e9, gm, e10, i, e11, u, e12, v, e13, w, e14, e⟩ := e
  obtain ⟨y0', z1, n0', z2, n', z3, c0', z4, c', z5, m0', z6, m', z7, gc', z8, gn', z9, gm', z10, i', z11, u', z12, v', z13, w', z14,
    e'⟩ := e'
  rw [e1, Except.ok.injEq] at z1
  subst z1
  rw [e2, Except.ok.injEq] at z2
  rw [e3, Except.ok.injEq] at z3
  rw [e6, Except.ok.injEq] at z6
  rw [e7, Except.ok.injEq] at z7
  rw [e8, Except.ok.injEq] at z8
  rw [e9, Except.ok.injEq] at z9
  rw [e10, Except.ok.injEq] at z10
  rw [e11, Except.ok.injEq] at z11
  subst z2 z3 z6 z7 z8 z9 z10 z11
  rw [pure_ok, Except.ok.injEq] at e e'
  subst e e'
  have ne : ∀ {t : String} (_ : t ≠ "CO2") {y : ℤ} {v : ℝ}, h.concAt t y = .ok v → h'.concAt t y = .ok v := by
    intro t ht y v hv
    rw [b.concAt ht, hv]
  refine ⟨y0, c, c0, c', c0', n, n0, m, m0, gc, gn, i, e1, ⟨e5, e4, e3, e2, e7, e6⟩,
    ⟨z5, z4, ne (by decide) e3, ne (by decide) e2, ne (by decide) e7, ne (by decide) e6⟩, e8, e9, e11, ?_, ?_, ?_, ?_, ?_⟩
  · simp [setForc, qCo2_eq]
  · simp [setForc, qCo2_eq]
  · simp [setForc, qN2o_eq]
  · simp [setForc, qN2o_eq]
  · refine ⟨?_, ?_, ?_, b.conc, ?_⟩
    · simp only [qCo2_eq, qN2o_eq]; ring
    · simp only [hem_three, qCo2_eq, qN2o_eq]; ring
    · simp only [hem_three, qCo2_eq, qN2o_eq]; ring
    · exact setForc_off (setForc_off (setForc_off b.forc _ _ _ _ (by simp)) _ _ _ _ (by simp)) _ _ _ _ (by simp)

theorem Near.accConc {a a' : Acc ℝ} (hc : ∀ c, c ≠ "CO2" → a'.conc c = a.conc c) {t : String} (ht : t ≠ "CO2") (y : ℤ) :
    accConc h' a' t y = accConc h a t y := by
  unfold Handler.accConc Handler.concAt
  simp only [b.concKeys, hc t ht]

theorem tracer_shift {yr : ℤ} {luc : ℝ} {a a' : Acc ℝ} {i : ℕ} {t : String} {x : ℝ} (s : Shift x a a')
    (ht : t ∉ ["CO2", "N2O", "CH4"]) {r r' : ℝ × (String → ℤ → Option ℝ)} (e : tracerForcing h yr luc a i t = .ok r)
    (e' : tracerForcing h' yr luc a' i t = .ok r') : r'.1 = r.1 ∧ (∀ c, c ≠ "CO2" → r'.2 c = r.2 c) ∧
      ∀ c, c ≠ "TROP_O3" → r.2 c = a.conc c ∧ r'.2 c = a'.conc c := by
  have htc : t ≠ "CO2" := by rintro rfl; exact ht (by simp)
  have ha : aerosolForcing h' yr t = aerosolForcing h yr t := by
    unfold aerosolForcing
    rw [b.y0, b.gasAt, b.emis, b.pam]
  have hal : hasAlpha h' t = hasAlpha h t := by unfold hasAlpha; rw [b.gas]
  unfold tracerForcing at e e'
  rw [ha, hal] at e'
  by_cases h1 : t = "LANDUSE"
  · rw [if_pos h1, Except.ok.injEq] at e e'
    subst e e'
    exact ⟨rfl, s.conc, fun _ _ => ⟨rfl, rfl⟩⟩
  rw [if_neg h1] at e e'
  by_cases h2 : isAerosol t = true
  · rw [if_pos h2, bind_eq_ok] at e e'
    obtain ⟨q, hq, e⟩ := e
    obtain ⟨q', hq', e'⟩ := e'
    rw [hq, Except.ok.injEq] at hq'
    rw [pure_ok, Except.ok.injEq] at e e'
    subst hq' e e'
    exact ⟨rfl, s.conc, fun _ _ => ⟨rfl, rfl⟩⟩
  rw [if_neg h2] at e e'
  by_cases h3 : hasAlpha h t = true
  · rw [if_pos h3] at e e'
    simp only [b.y0, b.accConc s.conc htc, b.gasAt] at e'
    simp only [bind_eq_ok] at e e'
    obtain ⟨y0, w1, c, w2, c0, w3, g, w4, e⟩ := e
    obtain ⟨y0', v1, c', v2, c0', v3, g', v4, e'⟩ := e'
    rw [w1, Except.ok.injEq] at v1
    subst v1
    rw [w2, Except.ok.injEq] at v2
    rw [w3, Except.ok.injEq] at v3
    rw [w4, Except.ok.injEq] at v4
    rw [pure_ok, Except.ok.injEq] at e e'
    subst v2 v3 v4 e e'
    exact ⟨rfl, s.conc, fun _ _ => ⟨rfl, rfl⟩⟩
  rw [if_neg h3] at e e'
  by_cases h4 : t = "TROP_O3"
  · rw [if_pos h4] at e e'
    rw [b.gasAt] at e'
    rw [bind_eq_ok] at e e'
    obtain ⟨q, hq, e⟩ := e
    obtain ⟨q', hq', e'⟩ := e'
    have hoc : tropO3Conc h' a' yr = tropO3Conc h a yr := by
      unfold tropO3Conc
      rw [b.pam, b.emis]
      simp only [b.accConc s.conc (show "CH4" ≠ "CO2" by decide), b.at (show "CH4" ≠ "CO2" by decide)]
    unfold tropO3Forcing at hq hq'
    rw [hoc, b.y0, b.concKeys, b.pam] at hq'
    simp only [bind_eq_ok] at hq hq' e e'
    obtain ⟨y0, w1, v, w2, u, w3, v0, w4, qo, w5, hq⟩ := hq
    obtain ⟨y0', x1, v', x2, u', x3, v0', x4, qo', x5, hq'⟩ := hq'
    rw [w1, Except.ok.injEq] at x1
    rw [w2, Except.ok.injEq] at x2
    subst x1 x2
    have hnew : ∀ c, c ≠ "CO2" → (fun y => if c = "TROP_O3" ∧ y = yr then some v else a'.conc c y) =
        fun y => if c = "TROP_O3" ∧ y = yr then some v else a.conc c y := by
      intro c hc
      funext y
      rw [s.conc c hc]
    rw [b.accConc (a := { a with conc := fun t y => if t = "TROP_O3" ∧ y = yr then some v else a.conc t y })
      (a' := { a' with conc := fun t y => if t = "TROP_O3" ∧ y = yr then some v else a'.conc t y }) hnew
      (show "TROP_O3" ≠ "CO2" by decide), w4, Except.ok.injEq] at x4
    rw [w5, Except.ok.injEq] at x5
    subst x4 x5
    obtain ⟨g, w6, e⟩ := e
    obtain ⟨g', x6, e'⟩ := e'
    rw [w6, Except.ok.injEq] at x6
    rw [pure_ok, Except.ok.injEq] at e e'
    subst x6 e e'
    have hoff : ∀ (f : String → ℤ → Option ℝ) c, c ≠ "TROP_O3" →
        (fun y => if c = "TROP_O3" ∧ y = yr then some v else f c y) = f c := by
      intro f c hc
      funext y
      rw [if_neg (fun x => hc x.1)]
    split at hq
    · rename_i hz
      rw [if_pos hz, pure_ok, Except.ok.injEq] at hq'
      rw [pure_ok, Except.ok.injEq] at hq
      subst hq hq'
      exact ⟨rfl, hnew, fun c hc => ⟨hoff _ c hc, hoff _ c hc⟩⟩
    · rename_i hz
      rw [if_neg hz, pure_ok, Except.ok.injEq] at hq'
      rw [pure_ok, Except.ok.injEq] at hq
      subst hq hq'
      exact ⟨rfl, hnew, fun c hc => ⟨hoff _ c hc, hoff _ c hc⟩⟩
  rw [if_neg h4] at e e'
  by_cases h5 : t = "STRAT_H2O"
  · rw [if_pos h5] at e e'
    rw [b.pam, b.gasAt, s.forc "CH4" (by decide) (by decide) (by decide)] at e'
    simp only [bind_eq_ok] at e e'
    obtain ⟨p, w1, g, w2, e⟩ := e
    obtain ⟨p', v1, g', v2, e'⟩ := e'
    rw [w1, Except.ok.injEq] at v1
    rw [w2, Except.ok.injEq] at v2
    rw [pure_ok, Except.ok.injEq] at e e'
    subst v1 v2 e e'
    exact ⟨rfl, s.conc, fun _ _ => ⟨rfl, rfl⟩⟩
  · rw [if_neg h5, Except.ok.injEq] at e e'
    subst e e'
    exact ⟨rfl, s.conc, fun _ _ => ⟨rfl, rfl⟩⟩

theorem loop_shift {yr : ℤ} {luc : ℝ} {i : ℕ} {x : ℝ} : ∀ {ts : List String} {a a' c c' : Acc ℝ}, Shift x a a' →
    ts.foldlM (forcStep h yr luc i) a = .ok c → ts.foldlM (forcStep h' yr luc i) a' = .ok c' →
    Shift x c c' ∧ (∀ t, t ≠ "TROP_O3" → c.conc t = a.conc t ∧ c'.conc t = a'.conc t) ∧
      ∀ t, t ∈ ["CO2", "N2O", "CH4"] → c.forc t = a.forc t ∧ c'.forc t = a'.forc t
  | [], a, a', c, c', s, e, e' => by
    rw [foldlM_nil_ok] at e e'
    subst e e'
    exact ⟨s, fun _ _ => ⟨rfl, rfl⟩, fun _ _ => ⟨rfl, rfl⟩⟩
  | t :: ts, a, a', c, c', s, e, e' => by
    rw [foldlM_cons_ok] at e e'
    obtain ⟨m, e1, e2⟩ := e
    obtain ⟨m', e1', e2'⟩ := e'
    have step : Shift x m m' ∧ (∀ t, t ≠ "TROP_O3" → m.conc t = a.conc t ∧ m'.conc t = a'.conc t) ∧
        ∀ t, t ∈ ["CO2", "N2O", "CH4"] → m.forc t = a.forc t ∧ m'.forc t = a'.forc t := by
      unfold forcStep at e1 e1'
      by_cases h1 : t ∈ ["CO2", "N2O", "CH4"]
      · rw [if_pos h1, Except.ok.injEq] at e1 e1'
        subst e1 e1'
        exact ⟨s, fun _ _ => ⟨rfl, rfl⟩, fun _ _ => ⟨rfl, rfl⟩⟩
      · rw [if_neg h1, bind_eq_ok] at e1 e1'
        obtain ⟨r, hr, e1⟩ := e1
        obtain ⟨r', hr', e1'⟩ := e1'
        rw [pure_ok, Except.ok.injEq] at e1 e1'
        obtain ⟨k1, k2, k3⟩ := tracer_shift b s h1 hr hr'
        subst e1 e1'
        refine ⟨⟨?_, ?_, ?_, k2, ?_⟩, k3, ?_⟩
        · simp only [k1, s.tot]; ring
        · simp only [k1, s.nh, s.sh, hem_shift]
        · simp only [k1, s.nh, s.sh, hem_shift]
        · exact setForc_off s.forc _ _ _ _ (by simp [k1])
        · intro u hu
          have hut : u ≠ t := by rintro rfl; exact h1 hu
          exact ⟨by funext j; simp [setForc, hut], by funext j; simp [setForc, hut]⟩
    obtain ⟨sm, p1, p2⟩ := step
    obtain ⟨sc, q1, q2⟩ := loop_shift sm e2 e2'
    exact ⟨sc, fun u hu => ⟨(q1 u hu).1.trans (p1 u hu).1, (q1 u hu).2.trans (p1 u hu).2⟩,
      fun u hu => ⟨(q2 u hu).1.trans (p2 u hu).1, (q2 u hu).2.trans (p2 u hu).2⟩⟩

omit b in
/-- Perturbation rows add the same on both sides. -/
theorem pert_fold {keys : List String} {i : ℕ} {x : ℝ} : ∀ (rows : List (PertRow ℝ)) {s s' : ForcAcc ℝ},
    s'.tot = s.tot + x → s'.nh = s.nh + x → s'.sh = s.sh + x →
    (rows.foldl (addForcingPertStep keys i) s').tot = (rows.foldl (addForcingPertStep keys i) s).tot + x ∧
    (rows.foldl (addForcingPertStep keys i) s').nh = (rows.foldl (addForcingPertStep keys i) s).nh + x ∧
    (rows.foldl (addForcingPertStep keys i) s').sh = (rows.foldl (addForcingPertStep keys i) s).sh + x ∧
    ∀ t j, (rows.foldl (addForcingPertStep keys i) s').forc t j - s'.forc t j =
      (rows.foldl (addForcingPertStep keys i) s).forc t j - s.forc t j
  | [], _, _, h1, h2, h3 => ⟨h1, h2, h3, fun _ _ => by simp⟩
  | r :: rows, s, s', h1, h2, h3 => by
    rw [List.foldl_cons, List.foldl_cons]
    by_cases hr : r.component ∉ keys
    · have e : ∀ z : ForcAcc ℝ, addForcingPertStep keys i z r = z := fun z => by unfold addForcingPertStep; rw [if_pos hr]
      rw [e, e]
      exact pert_fold rows h1 h2 h3
    · obtain ⟨c1, c2, c3, c4⟩ := pert_fold (keys := keys) (i := i) (x := x) rows (s := addForcingPertStep keys i s r)
        (s' := addForcingPertStep keys i s' r)
        (by unfold addForcingPertStep; simp only [if_neg hr]; rw [h1]; ring)
        (by unfold addForcingPertStep; simp only [if_neg hr]; rw [h2, h3, hem_shift])
        (by unfold addForcingPertStep; simp only [if_neg hr]; rw [h2, h3, hem_shift])
      refine ⟨c1, c2, c3, fun t j => ?_⟩
      have k : ∀ z : ForcAcc ℝ, (addForcingPertStep keys i z r).forc t j =
          z.forc t j + if t = r.component ∧ j = i then r.value else 0 := by
        intro z
        unfold addForcingPertStep
        simp only [if_neg hr, setForc]
        split
        · rename_i hh
          rw [hh.1, hh.2]
        · simp
      have := c4 t j
      rw [k, k] at this
      linarith

theorem pert_shift {y0 yr : ℤ} {x : ℝ} {a a' : Acc ℝ} (s : Shift x a a') :
    Shift x (addPert h y0 yr a) (addPert h' y0 yr a') ∧ (addPert h y0 yr a).conc = a.conc ∧
      (addPert h' y0 yr a').conc = a'.conc ∧
      ∀ t j, (addPert h' y0 yr a').forc t j - a'.forc t j = (addPert h y0 yr a).forc t j - a.forc t j := by
  unfold addPert
  rw [b.pert, b.forcKeys]
  cases h.pert with
  | none => exact ⟨s, rfl, rfl, fun _ _ => by simp⟩
  | some rows =>
    obtain ⟨c1, c2, c3, c4⟩ := pert_fold (keys := h.forcKeys) (i := (yr - y0).toNat) (x := x)
      (rows.filter (fun r => r.year = yr)) (s := ⟨a.tot, a.nh, a.sh, a.forc⟩) (s' := ⟨a'.tot, a'.nh, a'.sh, a'.forc⟩)
      s.tot s.nh s.sh
    refine ⟨⟨c1, c2, c3, s.conc, ?_⟩, rfl, rfl, c4⟩
    intro t h1 h2 h3
    funext j
    have := c4 t j
    simp only [s.forc t h1 h2 h3] at this
    exact sub_left_injective this

/-- The forcing of a year: the sums, and the forcing of CO2 and N2O, are moved by the documented effects. -/
theorem forc_shift {yr : ℤ} {luc sun : ℝ} {r r' : ForcResult ℝ} {g g' : Handler ℝ κ} (hj : h.pam.get? "just_one" = none)
    (e : conc2forc h yr luc sun = .ok (r, g)) (e' : conc2forc h' yr luc sun = .ok (r', g')) :
    ∃ y0 c c0 c' c0' n n0 m m0 gc gn i, h.y0 = .ok y0 ∧ Reads h y0 yr c c0 n n0 m m0 ∧ Reads h' y0 yr c' c0' n n0 m m0 ∧
      h.gasAt "CO2" = .ok gc ∧ h.gasAt "N2O" = .ok gn ∧ h.index yr = .ok i ∧
      let x := gc.sarf * co2Forcing c' c0' n n0 - gc.sarf * co2Forcing c c0 n n0
      let z := gn.sarf * n2oForcing n n0 c' c0' m m0 - gn.sarf * n2oForcing n n0 c c0 m m0
      r'.tot = r.tot + (x + z) ∧ r'.nh = r.nh + (x + z) ∧ r'.sh = r.sh + (x + z) ∧
      g'.forc "CO2" i = g.forc "CO2" i + x ∧ g'.forc "N2O" i = g.forc "N2O" i + z ∧
      Near g g' ∧ g = { h with conc := g.conc, forc := g.forc } ∧ g' = { h' with conc := g'.conc, forc := g'.forc } ∧
      ∀ t, t ≠ "TROP_O3" → g.conc t = h.conc t ∧ g'.conc t = h'.conc t := by
  unfold conc2forc at e e'
  rw [b.y0, b.index, b.forcKeys] at e'
  simp only [bind_eq_ok] at e e'
  obtain ⟨a1, e1, y0, e2, i, e3, a2, e4, a3, e5, a4, e6, e7⟩ := e
  obtain ⟨a1', e1', y0', e2', i', e3', a2', e4', a3', e5', a4', e6', e7'⟩ := e'
  rw [e2, Except.ok.injEq] at e2'
  rw [e3, Except.ok.injEq] at e3'
  subst e2' e3'
  have hb3 : a1.conc = h.conc ∧ a1'.conc = h'.conc := by
    constructor
    · unfold threeMain at e1
      simp only [bind_eq_ok] at e1
      obtain ⟨y0, -, n0, -, n, -, c0, -, c, -, m0, -, m, -, gc, -, gn, -, gm, -, i, -, u, -, v, -, w, -, e1⟩ := e1
      rw [pure_ok, Except.ok.injEq] at e1
      rw [← e1]
    · unfold threeMain at e1'
      simp only [bind_eq_ok] at e1'
      obtain ⟨y0, -, n0, -, n, -, c0, -, c, -, m0, -, m, -, gc, -, gn, -, gm, -, i, -, u, -, v, -, w, -, e1'⟩ := e1'
      rw [pure_ok, Except.ok.injEq] at e1'
      rw [← e1']
  obtain ⟨y1, c, c0, c', c0', n, n0, m, m0, gc, gn, i1, t1, t2, t3, t4, t5, t6, t7, t8, t9, t10, s1⟩ := three_shift b e1 e1'
  rw [e3, Except.ok.injEq] at t6
  rw [e2, Except.ok.injEq] at t1
  subst t6 t1
  obtain ⟨s2, l1, l2⟩ := loop_shift b s1 e4 e4'
  unfold addVanilla at e5 e5'
  rw [b.tot] at e5'
  rw [bind_eq_ok] at e5 e5'
  obtain ⟨v, hv, e5⟩ := e5
  obtain ⟨v', hv', e5'⟩ := e5'
  rw [hv, Except.ok.injEq] at hv'
  rw [pure_ok, Except.ok.injEq] at e5 e5'
  subst hv'
  have s3 : Shift ((gc.sarf * co2Forcing c' c0' n n0 - gc.sarf * co2Forcing c c0 n n0)
        + (gn.sarf * n2oForcing n n0 c' c0' m m0 - gn.sarf * n2oForcing n n0 c c0 m m0)) a3 a3' := by
    rw [← e5, ← e5']
    refine ⟨?_, ?_, ?_, s2.conc, s2.forc⟩
    · simp only [s2.tot]; ring
    · simp only [s2.nh]; ring
    · simp only [s2.sh]; ring
  obtain ⟨s4, p1, p2, p3⟩ := pert_shift b (y0 := y0) (yr := yr) s3
  unfold applyJustOne at e6 e6'
  rw [b.pam] at e6'
  rw [hj] at e6 e6'
  simp only [Except.ok.injEq] at e6 e6'
  rw [e6] at s4 p1 p3
  rw [e6'] at s4 p2 p3
  rw [pure_ok, Except.ok.injEq] at e7 e7'
  have er : r = (finishForc h i sun a4).1 := by rw [e7]
  have eg : g = (finishForc h i sun a4).2 := by rw [e7]
  have er' : r' = (finishForc h' i sun a4').1 := by rw [e7']
  have eg' : g' = (finishForc h' i sun a4').2 := by rw [e7']
  have q3 : ∀ t, a3.forc t = a2.forc t ∧ a3'.forc t = a2'.forc t := fun t => by rw [← e5, ← e5']; exact ⟨rfl, rfl⟩
  have q4 : a3.conc = a2.conc ∧ a3'.conc = a2'.conc := by rw [← e5, ← e5']; exact ⟨rfl, rfl⟩
  subst er eg er' eg'
  refine ⟨y0, c, c0, c', c0', n, n0, m, m0, gc, gn, i, e2, t2, t3, t4, t5, e3, s4.tot, ?_, ?_, ?_, ?_, ?_, rfl, rfl, ?_⟩
  · simp only [finishForc, s4.nh]; ring
  · simp only [finishForc, s4.sh]; ring
  · have k := p3 "CO2" i
    rw [(q3 "CO2").1, (q3 "CO2").2, (l2 "CO2" (by simp)).1, (l2 "CO2" (by simp)).2, t7, t8] at k
    simp [finishForc, setForc]
    linarith
  · have k := p3 "N2O" i
    rw [(q3 "N2O").1, (q3 "N2O").2, (l2 "N2O" (by simp)).1, (l2 "N2O" (by simp)).2, t9, t10] at k
    simp [finishForc, setForc]
    linarith
  · refine ⟨?_, b.gases, b.erf, b.spicy, b.cols, b.idx, b.cell, s4.conc, ?_⟩
    · have e := b.eq
      unfold finishForc
      simp only
      conv_lhs => rw [e]
    · exact setForc_off s4.forc _ _ _ _ (by simp)
  · intro t ht
    refine ⟨?_, ?_⟩
    · show a4.conc t = _
      rw [p1, q4.1, (l1 t ht).1, hb3.1]
    · show a4'.conc t = _
      rw [p2, q4.2, (l1 t ht).2, hb3.2]

end

/-! ## The gases computed ahead -/

theorem prec_same {k : String} (hk : k ∈ ["CO2", "N2O", "CH4"]) {gas : Dict (Gas ℝ)} {t t' emis : Frame ℝ} {pam : Dict (PyVal ℝ)} {pert : Option (List (PertRow ℝ))}
    {ns es ne : ℤ} {cl br : Dict Int} {p p' : Precalc ℝ} (hrun : pamB pam "conc_run" = .ok true)
    (hc : RunTables t emis pam ns es ne) (hc' : RunTables t' emis pam ns es ne) (hgas : gas.keys.Nodup)
    (hcl : k ∉ cl.keys) (hbr : k ∉ br.keys) (ho : ∀ c, c ≠ k → ∀ y, t'.cell c y = t.cell c y)
    (e : precalculate gas t emis pam pert (pyRange ns (ne + 1)) cl br = .ok p)
    (e' : precalculate gas t' emis pam pert (pyRange ns (ne + 1)) cl br = .ok p') :
    p'.gases = p.gases ∧ (p'.erf.cols = p.erf.cols ∧ ∀ c ∈ p.erf.cols, ∀ y, p'.erf.val c y = p.erf.val c y) ∧ p'.spicy = p.spicy ∧ p.conc = concRows t ns ne ∧ p'.conc = concRows t' ns ne := by
  obtain ⟨so3, strat, g1, c1, s1, z1, a1, sp1⟩ := prec_form hrun hc e
  obtain ⟨so3', strat', g2, c2, s2, z2, a2, sp2⟩ := prec_form hrun hc' e'
  have hg : p'.gases = p.gases := by rw [g1, Except.ok.injEq] at g2; exact g2.symm
  rw [s1, Except.ok.injEq] at s2
  subst s2
  rw [hg, strat_same hcl hbr ho, z1, Except.ok.injEq] at z2
  subst z2
  rw [hg] at a2 sp2
  have hnot : k ∉ p.gases := by
    intro h
    obtain ⟨x, -, -, n1, n2, n3⟩ := (mem_vanilla hgas g1 k).1 h
    simp only [List.mem_cons, List.not_mem_nil, or_false] at hk
    rcases hk with h | h | h <;> contradiction
  refine ⟨hg, ?_, by rw [sp1, sp2], c1, c2⟩
  have hnd : (aheadTable gas t p.gases strat ns ne).cols.Nodup := by
    have : p.gases.Nodup := by
      unfold vanillaGases at g1
      split at g1
      · rw [Except.ok.injEq] at g1
        rw [← g1]
        exact (List.filter_sublist.map Prod.fst).nodup hgas
      · cases g1
    unfold aheadTable
    simp only
    split
    · exact this
    · rename_i h3
      rw [List.nodup_append]
      exact ⟨this, by simp, fun a ha b hb => by
        rw [List.mem_singleton] at hb
        subst hb
        exact fun e => h3 (e ▸ ha)⟩
  obtain ⟨q1, q2⟩ := vanilla_ok hnd a1
  obtain ⟨r1, r2⟩ := vanilla_ok (t := aheadTable gas t' p.gases strat ns ne) hnd a2
  refine ⟨by rw [q1, r1]; rfl, fun c hcm y => ?_⟩
  rw [q1] at hcm
  rw [q2 c hcm y, r2 c hcm y]
  have hck : c ≠ k := by
    rintro rfl
    unfold aheadTable at hcm
    simp only at hcm
    split at hcm
    · exact hnot hcm
    · rcases List.mem_append.1 hcm with h | h
      · exact hnot h
      · rw [List.mem_singleton] at h
        subst h
        simp at hk
  have hv : (aheadTable gas t' p.gases strat ns ne).val c y = (aheadTable gas t p.gases strat ns ne).val c y := by
    unfold aheadTable
    simp only [ho c hck]
  rw [hv]

/-! ## Runs -/

/-- Two handlers of concentration-driven runs whose inputs differ in CO2 only, when the years before `y` are done. -/
structure Twin (i i' : Inputs ℝ) (sc sn : ℝ) (ns ne y : ℤ) (h h' : Handler ℝ κ) : Prop where
  near : Near h h'
  gas : h.gas = i.gas
  concIn : h.concIn = i.concIn
  concIn' : h'.concIn = i'.concIn
  rows : h.prec.conc = concRows i.concIn ns ne
  rows' : h'.prec.conc = concRows i'.concIn ns ne
  first : h.y0 = .ok ns
  run : pamB h.pam "conc_run" = .ok true
  just : h.pam.get? "just_one" = none
  past : ∀ z, ns ≤ z → z < y → ∀ t, t ∈ h.concKeys → t ≠ "TROP_O3" → t ∈ i.concIn.cols →
    h.conc t z = some (i.concIn.cell t z) ∧ h'.conc t z = some (i'.concIn.cell t z)
  gain : ∀ z, ns ≤ z → z < y →
    h'.forc "CO2" (z - ns).toNat = h.forc "CO2" (z - ns).toNat + co2Effect sc i.concIn.cell i'.concIn.cell ns z ∧
    h'.forc "N2O" (z - ns).toNat = h.forc "N2O" (z - ns).toNat + overlapEffect sn i.concIn.cell i'.concIn.cell ns z

theorem construct_twin {cops : CarbonOps ℝ κ} {i i' : Inputs ℝ} {pamset carb : Option (Dict (PyVal ℝ))} {h h' : Handler ℝ κ}
    {ns es ne : ℤ} (sc sn : ℝ) (hi : OnlyConcOf "CO2" i i') (hgas : i.gas.keys.Nodup)
    (ht : RunTables i.concIn i.emis (Dict.set (Factory.checkPamset pamset) "conc_run" (.bool i.concRun)) ns es ne)
    (hj : "just_one" ∉ Dict.keys (pamset.getD [])) (hstart : i'.concIn.cell "CO2" ns = i.concIn.cell "CO2" ns)
    (e : construct cops i pamset carb = .ok h) (e' : construct cops i' pamset carb = .ok h') :
    Twin i i' sc sn ns ne ns h h' := by
  obtain ⟨emis0, -, -, q1, q2, -⟩ := constructed e ht
  obtain ⟨ns1, ne1, emis, clbr, prec, pre, k0, kk, h1, h2, h3, h4, h5, h6, h7, h8, rfl⟩ := construct_spec e
  obtain ⟨ns2, ne2, emis', clbr', prec', pre', k0', kk', g1, g2, g3, g4, g5, g6, g7, g8, rfl⟩ := construct_spec e'
  rw [h3, Except.ok.injEq] at q1
  subst q1
  rw [h1, Except.ok.injEq] at g1
  rw [h2, Except.ok.injEq] at g2
  subst g1 g2
  have hem : perturbedEmis i' = perturbedEmis i := by unfold perturbedEmis; rw [hi.emis, hi.pertEm]
  rw [hem, h3, Except.ok.injEq] at g3
  subst g3
  rw [hi.gas, h4, Except.ok.injEq] at g4
  subst g4
  have hset : ∀ k, k ≠ "conc_run" → pamI (Dict.set (Factory.checkPamset pamset) "conc_run"
      (.bool i.concRun)) k = pamI (Factory.checkPamset pamset) k := by
    intro k hk
    unfold pamI Dict.getE
    rw [Dict.get?_set, if_neg (fun e => hk e.symm)]
  have hns := ht.nystart
  have hne := ht.nyend
  rw [hset _ (by decide), h1, Except.ok.injEq] at hns
  rw [hset _ (by decide), h2, Except.ok.injEq] at hne
  subst hns hne
  have hcr : i'.concRun = i.concRun := by rw [hi.concRun, hi.concRun']
  rw [hcr, hi.gas, hi.pertForc] at g5
  have hco2 : i'.concIn.at' "CO2" ns1 = i.concIn.at' "CO2" ns1 := by
    unfold Frame.at'
    rw [hi.cols, hi.idx, hstart]
  rw [hco2, h6, Except.ok.injEq] at g6
  subst g6
  rw [hcr, h7, Except.ok.injEq] at g7
  subst g7
  rw [h8, Except.ok.injEq] at g8
  subst g8
  have hrun : pamB (Dict.set (Factory.checkPamset pamset) "conc_run" (.bool i.concRun)) "conc_run" = .ok true := by
    unfold pamB Dict.getE
    rw [Dict.get?_set, if_pos rfl, hi.concRun]
    rfl
  have ht' : RunTables i'.concIn emis (Dict.set (Factory.checkPamset pamset) "conc_run" (.bool i.concRun)) ns1 es ne1 :=
    ⟨q2.nystart, q2.nyend, q2.emstart, by rw [hi.idx]; exact q2.concIdx, q2.emisIdx, q2.nonempty, q2.order⟩
  obtain ⟨hcl, hbr⟩ := halogen_keys (k := "CO2") (by decide +kernel) (show PubUtils.clBrLoop [] [] i.gas.keys = .ok clbr from h4)
    (by simp [Dict.keys]) (by simp [Dict.keys])
  obtain ⟨c1, c2, c3, c4, c5⟩ := prec_same (k := "CO2") (by simp) hrun q2 ht' hgas hcl hbr hi.others h5 g5
  refine ⟨⟨?_, c1, c2, c3, hi.cols, hi.idx, hi.others, fun _ _ => rfl, fun _ _ _ _ => rfl⟩, rfl, rfl, rfl, c4, c5, ?_, ?_, ?_,
    fun z h1 h2 => by omega, fun z h1 h2 => by omega⟩
  · simp only [hi.gas, hi.natCh4, hi.natN2o, hcr, hi.pertForc, c3]
  · unfold Handler.y0
    rw [pyRange_cons (by have := q2.nonempty; omega)]
  · have hget : (avoidRegionalDoubleCounting i.gas.keys
        (Dict.set (Factory.checkPamset pamset) "conc_run" (.bool i.concRun))).get? "conc_run" = some (.bool true) := by
      rw [avoid_get? _ _ _ (by decide), Dict.get?_set, if_pos rfl, hi.concRun]
    show pamB (avoidRegionalDoubleCounting i.gas.keys
        (Dict.set (Factory.checkPamset pamset) "conc_run" (.bool i.concRun))) "conc_run" = .ok true
    unfold pamB Dict.getE
    rw [hget]
    rfl
  · show (avoidRegionalDoubleCounting i.gas.keys
        (Dict.set (Factory.checkPamset pamset) "conc_run" (.bool i.concRun))).get? "just_one" = none
    rw [avoid_get? _ _ _ (by decide), Dict.get?_set, if_neg (by decide), get?_eq_none_iff,
      mem_keys_checkPamset, not_or]
    refine ⟨?_, fun ⟨_, x⟩ => hj x⟩
    unfold Factory.checkPamset cutAndCheckPamset
    rw [mem_keys_checkNumeric, mem_keys_cut]
    simp [Factory.handlerRequired, Dict.keys, Dict.has, Dict.get?, Dict.set]

section
variable {i i' : Inputs ℝ} {sc sn : ℝ} {ns ne : ℤ} {h h' : Handler ℝ κ}

theorem Twin.reset {y : ℤ} (P : Twin i i' sc sn ns ne y h h') {cops : CarbonOps ℝ κ} {p q : Option (Dict (PyVal ℝ))}
    (hj : "just_one" ∉ Dict.keys (p.getD [])) {g g' : Handler ℝ κ} (e : resetWithNewPams cops h p q = .ok g)
    (e' : resetWithNewPams cops h' p q = .ok g') : Twin i i' sc sn ns ne ns g g' := by
  have K := (Kept.refl True h).reset yearLaw_real e (fun _ => hj)
  have hr : pamB g.pam "conc_run" = .ok true := by
    have := P.run
    unfold pamB Dict.getE at this ⊢
    rw [K.pam _ (by
      unfold Factory.checkPamset cutAndCheckPamset
      rw [mem_keys_checkNumeric, mem_keys_cut]
      simp [Factory.handlerRequired, Dict.keys, Dict.has, Dict.get?, Dict.set]) (by decide)]
    exact this
  have hj' : g.pam.get? "just_one" = none := by rw [K.just trivial, P.just]
  obtain ⟨pam, c, e1, e2, rfl⟩ := reset_spec e
  obtain ⟨pam', c', e1', e2', rfl⟩ := reset_spec e'
  rw [P.near.pam, e1, Except.ok.injEq] at e1'
  rw [P.near.carbon, e2, Except.ok.injEq] at e2'
  subst e1' e2'
  refine ⟨⟨?_, P.near.gases, P.near.erf, P.near.spicy, P.near.cols, P.near.idx, P.near.cell, fun _ _ => rfl, fun _ _ _ _ => rfl⟩,
    P.gas, P.concIn, P.concIn', P.rows, P.rows', P.first, hr, hj', fun z h1 h2 => by omega,
    fun z h1 h2 => by omega⟩
  have e := P.near.eq
  rw [P.near.gas, P.near.spicy]
  conv_lhs => rw [e]

/-- What all three main gases need: their ERF factors and columns of prescribed concentrations. -/
structure Main (i : Inputs ℝ) (sc sn : ℝ) : Prop where
  factors : Factors i.gas sc sn
  cols : ∀ t ∈ ["CO2", "N2O", "CH4"], t ∈ i.concIn.cols

theorem Twin.year {y : ℤ} (P : Twin i i' sc sn ns ne y h h') (hi : OnlyConcOf "CO2" i i') (hm : Main i sc sn) (hy : ns ≤ y)
    {cops : CarbonOps ℝ κ} {fb fb' : Option (Dict ℝ)} {m m' g g' : Handler ℝ κ} {luc sun : ℝ} {r r' : ForcResult ℝ}
    (e1 : emi2conc cops h y fb = .ok m) (e1' : emi2conc cops h' y fb' = .ok m')
    (e2 : conc2forc m y luc sun = .ok (r, g)) (e2' : conc2forc m' y luc sun = .ok (r', g')) :
    Twin i i' sc sn ns ne (y + 1) g g' ∧
      r'.tot = r.tot + (co2Effect sc i.concIn.cell i'.concIn.cell ns y + overlapEffect sn i.concIn.cell i'.concIn.cell ns y) ∧
      r'.nh = r.nh + (co2Effect sc i.concIn.cell i'.concIn.cell ns y + overlapEffect sn i.concIn.cell i'.concIn.cell ns y) ∧
      r'.sh = r.sh + (co2Effect sc i.concIn.cell i'.concIn.cell ns y + overlapEffect sn i.concIn.cell i'.concIn.cell ns y) := by
  obtain ⟨p, q⟩ := emi_fill P.run e1
  obtain ⟨p', q'⟩ := emi_fill (by rw [P.near.pam]; exact P.run) e1'
  have b := P.near.emi P.run e1 e1'
  have hmj : m.pam.get? "just_one" = none := by rw [p]; exact P.just
  have past : ∀ z, ns ≤ z → z < y + 1 → ∀ t, t ∈ h.concKeys → t ≠ "TROP_O3" → t ∈ i.concIn.cols →
      m.conc t z = some (i.concIn.cell t z) ∧ m'.conc t z = some (i'.concIn.cell t z) := by
    intro z h1 h2 t ht h3 hc
    rw [q, q', P.near.concKeys]
    by_cases hz : z = y
    · subst hz
      have hc' : t ∈ i'.concIn.cols := by rw [hi.cols]; exact hc
      simp only [ht, and_self, if_true, hc', hc, P.concIn, P.concIn']
    · rw [if_neg (fun x => hz x.1), if_neg (fun x => hz x.1)]
      exact P.past z h1 (by omega) t ht h3 hc
  obtain ⟨y0, c, c0, c', c0', n, n0, k, k0, gc, gn, j, w1, w2, w3, w4, w5, w6, w7, w8, w9, w10, w11, w12, w13, w14, w15⟩ :=
    forc_shift b hmj e2 e2'
  have hmy : m.y0 = .ok ns := by rw [p]; exact P.first
  rw [hmy, Except.ok.injEq] at w1
  subst w1
  have hmk : m.concKeys = h.concKeys := by rw [p]
  have hmk' : m'.concKeys = h.concKeys := by rw [p', P.near.concKeys]
  have read : ∀ {t : String} {z : ℤ} {v : ℝ}, t ∈ ["CO2", "N2O", "CH4"] → ns ≤ z → z ≤ y → m.concAt t z = .ok v →
      v = i.concIn.cell t z := by
    intro t z v ht h1 h2 hv
    unfold Handler.concAt at hv
    split at hv
    · rename_i hk
      rw [hmk] at hk
      rw [(past z h1 (by omega) t hk (by rintro rfl; simp at ht) (hm.cols t ht)).1] at hv
      simp only [Except.ok.injEq] at hv
      exact hv.symm
    · cases hv
  have read' : ∀ {t : String} {z : ℤ} {v : ℝ}, t ∈ ["CO2", "N2O", "CH4"] → ns ≤ z → z ≤ y → m'.concAt t z = .ok v →
      v = i'.concIn.cell t z := by
    intro t z v ht h1 h2 hv
    unfold Handler.concAt at hv
    split at hv
    · rename_i hk
      rw [hmk'] at hk
      rw [(past z h1 (by omega) t hk (by rintro rfl; simp at ht) (hm.cols t ht)).2] at hv
      simp only [Except.ok.injEq] at hv
      exact hv.symm
    · cases hv
  have v1 := read (by simp) hy le_rfl w2.co2
  have v2 := read (by simp) le_rfl hy w2.co2'
  have v3 := read (by simp) hy le_rfl w2.n2o
  have v4 := read (by simp) le_rfl hy w2.n2o'
  have v5 := read (by simp) hy le_rfl w2.ch4
  have v6 := read (by simp) le_rfl hy w2.ch4'
  have v1' := read' (by simp) hy le_rfl w3.co2
  have v2' := read' (by simp) le_rfl hy w3.co2'
  have hgm : m.gas = i.gas := by rw [p]; exact P.gas
  have hsc : gc.sarf = sc := by
    obtain ⟨x, hx, hs⟩ := hm.factors.co2
    rw [gasAt_eq_ok, hgm, hx, Option.some.injEq] at w4
    rw [← w4, hs]
  have hsn : gn.sarf = sn := by
    obtain ⟨x, hx, hs⟩ := hm.factors.n2o
    rw [gasAt_eq_ok, hgm, hx, Option.some.injEq] at w5
    rw [← w5, hs]
  subst v1 v2 v3 v4 v5 v6 v1' v2' hsc hsn
  have ne1 := hi.others "N2O" (by decide)
  have ne2 := hi.others "CH4" (by decide)
  have x1 : co2Effect gc.sarf i.concIn.cell i'.concIn.cell ns y =
      gc.sarf * co2Forcing (i'.concIn.cell "CO2" y) (i'.concIn.cell "CO2" ns) (i.concIn.cell "N2O" y) (i.concIn.cell "N2O" ns)
      - gc.sarf * co2Forcing (i.concIn.cell "CO2" y) (i.concIn.cell "CO2" ns) (i.concIn.cell "N2O" y) (i.concIn.cell "N2O" ns) := by
    unfold co2Effect
    rw [ne1, ne1]
  have x2 : overlapEffect gn.sarf i.concIn.cell i'.concIn.cell ns y =
      gn.sarf * n2oForcing (i.concIn.cell "N2O" y) (i.concIn.cell "N2O" ns) (i'.concIn.cell "CO2" y) (i'.concIn.cell "CO2" ns)
        (i.concIn.cell "CH4" y) (i.concIn.cell "CH4" ns)
      - gn.sarf * n2oForcing (i.concIn.cell "N2O" y) (i.concIn.cell "N2O" ns) (i.concIn.cell "CO2" y) (i.concIn.cell "CO2" ns)
        (i.concIn.cell "CH4" y) (i.concIn.cell "CH4" ns) := by
    unfold overlapEffect
    rw [ne1, ne1, ne2, ne2]
  rw [← x1, ← x2] at w7 w8 w9
  rw [← x1] at w10
  rw [← x2] at w11
  refine ⟨?_, w7, w8, w9⟩
  have hj : j = (y - ns).toNat := by
    obtain ⟨y1, k1, -, k2, -⟩ := index_spec w6
    rw [hmy, Except.ok.injEq] at k1
    rw [k2, k1]
  subst hj
  obtain ⟨j1, u1, -, -, -, -, u2⟩ := conc2forc_frame e2
  obtain ⟨j2, u3, -, -, -, -, u4⟩ := conc2forc_frame e2'
  rw [w6, Except.ok.injEq] at u1
  rw [b.index, w6, Except.ok.injEq] at u3
  subst u1 u3
  have hgk : g.concKeys = h.concKeys := by rw [w13]; exact hmk
  refine ⟨w12, ?_, ?_, ?_, ?_, ?_, ?_, ?_, ?_, ?_, ?_⟩
  · rw [w13]; exact hgm
  · rw [w13]
    show m.concIn = _
    rw [p]
    exact P.concIn
  · rw [w14]
    show m'.concIn = _
    rw [p']
    exact P.concIn'
  · rw [w13]
    show m.prec.conc = _
    rw [p]
    exact P.rows
  · rw [w14]
    show m'.prec.conc = _
    rw [p']
    exact P.rows'
  · rw [w13]; exact hmy
  · rw [w13]
    show pamB m.pam _ = _
    rw [p]
    exact P.run
  · rw [w13]; exact hmj
  · intro z h1 h2 t ht h3 hc
    rw [(w15 t h3).1, (w15 t h3).2]
    exact past z h1 h2 t (by rw [← hgk]; exact ht) h3 hc
  · intro z h1 h2
    by_cases hz : z = y
    · subst hz
      exact ⟨w10, w11⟩
    · have hne : (z - ns).toNat ≠ (y - ns).toNat := by omega
      rw [u2 _ _ hne, u2 _ _ hne, u4 _ _ hne, u4 _ _ hne]
      have hf : m.forc = h.forc := by rw [p]
      have hf' : m'.forc = h'.forc := by rw [p']
      rw [hf, hf']
      exact P.gain z h1 (by omega)

/-- The effect of other CO2 on the total forcing of a year. -/
noncomputable def both (i i' : Inputs ℝ) (sc sn : ℝ) (ns y : ℤ) : ℝ :=
  co2Effect sc i.concIn.cell i'.concIn.cell ns y + overlapEffect sn i.concIn.cell i'.concIn.cell ns y

/-- The years of two runs, in step. -/
theorem Twin.chain (P : Twin i i' sc sn ns ne ns h h') (hi : OnlyConcOf "CO2" i i') (hm : Main i sc sn)
    {cops : CarbonOps ℝ κ} {d d' : Driver ℝ κ} (hns : d.nystart = ns)
    (hns' : d'.nystart = ns) (hluc : d'.luc = d.luc) (hsun : d'.sun = d.sun) {src src' : ℤ → Source ℝ κ}
    {f f' : ℤ → YearForcing ℝ} {v v' : ℤ → Option (Dict ℝ)} (h0 : src ns = .handler h) (h0' : src' ns = .handler h')
    (st : ∀ y, ns ≤ y → y ≤ ne → yearForcing cops d (src y) (v y) y = .ok (f y, src (y + 1)))
    (st' : ∀ y, ns ≤ y → y ≤ ne → yearForcing cops d' (src' y) (v' y) y = .ok (f' y, src' (y + 1))) :
    (∀ y, ns ≤ y → y ≤ ne + 1 → ∃ g g', src y = .handler g ∧ src' y = .handler g' ∧ Twin i i' sc sn ns ne y g g') ∧
    ∀ y, ns ≤ y → y ≤ ne → (f' y).fn = (f y).fn + both i i' sc sn ns y ∧ (f' y).fs = (f y).fs + both i i' sc sn ns y ∧
      (f' y).forc = (f y).forc + both i i' sc sn ns y := by
  have step : ∀ y, ns ≤ y → y ≤ ne → ∀ g g', src y = .handler g → src' y = .handler g' → Twin i i' sc sn ns ne y g g' →
      (∃ m m', src (y + 1) = .handler m ∧ src' (y + 1) = .handler m' ∧ Twin i i' sc sn ns ne (y + 1) m m') ∧
      (f' y).fn = (f y).fn + both i i' sc sn ns y ∧ (f' y).fs = (f y).fs + both i i' sc sn ns y ∧
      (f' y).forc = (f y).forc + both i i' sc sn ns y := by
    intro y h1 h2 g g' s s' Q
    have a := st y h1 h2
    have a' := st' y h1 h2
    rw [s] at a
    rw [s'] at a'
    unfold yearForcing at a a'
    simp only [bind_eq_ok] at a a'
    obtain ⟨m, e1, luc, e2, sun, e3, r, e4, a⟩ := a
    obtain ⟨m', e1', luc', e2', sun', e3', r', e4', a'⟩ := a'
    rw [pure_ok, Except.ok.injEq, Prod.mk.injEq] at a a'
    rw [hluc, hns', ← hns, e2, Except.ok.injEq] at e2'
    rw [hsun, hns', ← hns, e3, Except.ok.injEq] at e3'
    subst e2' e3'
    obtain ⟨T, t1, t2, t3⟩ := Q.year hi hm h1 e1 e1' (r := r.1) (g := r.2) (r' := r'.1) (g' := r'.2) e4 e4'
    refine ⟨⟨r.2, r'.2, a.2.symm, a'.2.symm, T⟩, ?_, ?_, ?_⟩
    · rw [← a.1, ← a'.1]; exact t2
    · rw [← a.1, ← a'.1]; exact t3
    · rw [← a.1, ← a'.1]; exact t1
  have all : ∀ n : ℕ, ns + n ≤ ne + 1 → ∃ g g', src (ns + n) = .handler g ∧ src' (ns + n) = .handler g' ∧
      Twin i i' sc sn ns ne (ns + n) g g' := by
    intro n
    induction n with
    | zero => intro _; exact ⟨h, h', by simpa using h0, by simpa using h0', by simpa using P⟩
    | succ n ih =>
      intro hn
      push_cast at hn
      obtain ⟨g, g', s, s', Q⟩ := ih (by omega)
      have := (step _ (by omega) (by omega) g g' s s' Q).1
      push_cast
      rw [← add_assoc]
      exact this
  have all' : ∀ y, ns ≤ y → y ≤ ne + 1 → ∃ g g', src y = .handler g ∧ src' y = .handler g' ∧ Twin i i' sc sn ns ne y g g' := by
    intro y h1 h2
    have := all (y - ns).toNat (by omega)
    rwa [show ns + ((y - ns).toNat : ℤ) = y by omega] at this
  refine ⟨all', fun y h1 h2 => ?_⟩
  obtain ⟨g, g', s, s', Q⟩ := all' y h1 (by omega)
  exact (step y h1 h2 g g' s s' Q).2

/-- Two runs of instances in step end in step. -/
theorem Twin.run_twin {cops : CarbonOps ℝ κ} {tops : ThermalOps ℝ τ} {tops' : ThermalOps ℝ τ'} {d d' d1 d1' : Driver ℝ κ}
    {p : RunPams ℝ} {p' : RunPams ℝ} {t : τ} {t' : τ'} {y0 : ℤ} (P : Twin i i' sc sn d.nystart d.nyend y0 h h')
    (hi : OnlyConcOf "CO2" i i') (hm : Main i sc sn) (hd : d.source = .handler h)
    (hd' : d'.source = .handler h') (hns : d'.nystart = d.nystart) (hne : d'.nyend = d.nyend) (hluc : d'.luc = d.luc)
    (hsun : d'.sun = d.sun) (hj : "just_one" ∉ Dict.keys (p.emiconc.getD [])) (hp : p'.emiconc = p.emiconc)
    (hp' : p'.carbon = p.carbon) (e : Driver.run cops tops d p = .ok (d1, t)) (e' : Driver.run cops tops' d' p' = .ok (d1', t')) :
    ∃ g g', d1.source = .handler g ∧ d1'.source = .handler g' ∧ Twin i i' sc sn d.nystart d.nyend (d.nyend + 1) g g' := by
  obtain ⟨tr, T⟩ := run_trace e
  obtain ⟨tr', T'⟩ := run_trace e'
  obtain ⟨H, hr, hH, -⟩ := handler_trace T hd
  obtain ⟨H', hr', hH', -⟩ := handler_trace T' hd'
  rw [hp, hp', hns] at hr'
  have hle : d.nystart ≤ d.nyend + 1 := by
    have := (initialise_spec (startRun_spec T.start).1).1; omega
  have Q := P.reset hj hr hr'
  have F : ∀ y, ∃ f, d.nystart ≤ y → y ≤ d.nyend →
      yearForcing cops d (tr y).source (tr y).values y = .ok (f, (tr (y + 1)).source) := by
    intro y
    by_cases h1 : d.nystart ≤ y ∧ y ≤ d.nyend
    · obtain ⟨f, vn, vs, values, a1, -⟩ := yearStep_spec (T.step y h1.1 h1.2)
      exact ⟨f, fun _ _ => a1⟩
    · exact ⟨⟨0, 0, 0, 0⟩, fun a b => absurd ⟨a, b⟩ h1⟩
  have F' : ∀ y, ∃ f, d.nystart ≤ y → y ≤ d.nyend →
      yearForcing cops d' (tr' y).source (tr' y).values y = .ok (f, (tr' (y + 1)).source) := by
    intro y
    by_cases h1 : d.nystart ≤ y ∧ y ≤ d.nyend
    · obtain ⟨f, vn, vs, values, a1, -⟩ := yearStep_spec (T'.step y (by omega) (by omega))
      exact ⟨f, fun _ _ => a1⟩
    · exact ⟨⟨0, 0, 0, 0⟩, fun a b => absurd ⟨a, b⟩ h1⟩
  choose f hf using F
  choose f' hf' using F'
  obtain ⟨all, -⟩ := Q.chain hi hm rfl hns hluc hsun (src := fun y => (tr y).source) (src' := fun y => (tr' y).source)
    (hH _ le_rfl hle) (by simpa [hns] using hH' d'.nystart le_rfl (by omega)) hf hf'
  obtain ⟨g, g', s, s', R⟩ := all (d.nyend + 1) hle le_rfl
  refine ⟨g, g', ?_, ?_, R⟩
  · rw [T.last.1]; exact s
  · rw [T'.last.1, hne]; exact s'

/-- After the same earlier runs the two instances are still in step. -/
theorem after_twin {cops : CarbonOps ℝ κ} {tops : ThermalOps ℝ τ} {tops' : ThermalOps ℝ τ'} {d0 d0' : Driver ℝ κ}
    {h0 h0' : Handler ℝ κ} (hd0 : d0.source = .handler h0) (hd0' : d0'.source = .handler h0') (hs : SameSetting d0 d0')
    (hi : OnlyConcOf "CO2" i i') (hm : Main i sc sn)
    (P : Twin i i' sc sn d0.nystart d0.nyend d0.nystart h0 h0') : ∀ {ps : List (RunPams ℝ)} {d d' : Driver ℝ κ},
    After cops tops d0 ps d → After cops tops' d0' ps d' → (∀ q ∈ ps, "just_one" ∉ Dict.keys (q.emiconc.getD [])) →
    ∃ h h' y, d.source = .handler h ∧ d'.source = .handler h' ∧ Twin i i' sc sn d0.nystart d0.nyend y h h' ∧
      d.nystart = d0.nystart ∧ d.nyend = d0.nyend ∧ SameSetting d d' := by
  intro ps
  induction ps using List.reverseRecOn with
  | nil =>
    intro d d' a a' _
    rw [after_nil a, after_nil a']
    exact ⟨h0, h0', _, hd0, hd0', P, rfl, rfl, hs⟩
  | append_singleton ps q ih =>
    intro d d' a a' hj
    obtain ⟨m, t, b, e⟩ := after_snoc a
    obtain ⟨m', t', b', e'⟩ := after_snoc a'
    obtain ⟨h, h', y, s, s', Q, n1, n2, S⟩ := ih b b' (fun r hr => hj r (List.mem_append_left _ hr))
    rw [← n1, ← n2] at Q
    obtain ⟨g, g', u, u', R⟩ := Q.run_twin hi hm s s' S.first S.last S.luc S.sun
      (hj q (List.mem_append_right _ (List.mem_singleton.2 rfl))) rfl rfl e e'
    obtain ⟨-, -, -, -, -, -, -, z⟩ := run_handler_spec s e
    obtain ⟨-, -, -, -, -, -, -, z'⟩ := run_handler_spec s' e'
    rw [n1, n2] at R
    refine ⟨g, g', _, u, u', R, by rw [z]; exact n1, by rw [z]; exact n2, ?_⟩
    rw [z, z']
    exact ⟨S.first, S.last, S.luc, S.sun, S.north, S.south⟩

/-- What a run of the thermal model is given. -/
theorem forced_twin {cops : CarbonOps ℝ κ} {d d' d1 d1' : Driver ℝ κ} {p : RunPams ℝ} {h h' : Handler ℝ κ} {y0 : ℤ}
    (hd : d.source = .handler h) (hd' : d'.source = .handler h') (hs : SameSetting d d')
    (hi : OnlyConcOf "CO2" i i') (hm : Main i sc sn)
    (P : Twin i i' sc sn d.nystart d.nyend y0 h h') (hj : "just_one" ∉ Dict.keys (p.emiconc.getD []))
    {f f' : ℕ → YearForcing ℝ} {v v' : ℕ → Option (Dict ℝ)}
    (F : ForcedBy cops d d1 p f v) (F' : ForcedBy cops d' d1' p f' v') :
    ∀ n : ℕ, n < (d.nyend - d.nystart + 1).toNat →
      (f' n).fn = (f n).fn + both i i' sc sn d.nystart (d.nystart + n) ∧
      (f' n).fs = (f n).fs + both i i' sc sn d.nystart (d.nystart + n) := by
  obtain ⟨src, r, -, st⟩ := F.chain
  obtain ⟨src', r', -, st'⟩ := F'.chain
  rw [hd] at r
  rw [hd'] at r'
  unfold resetSource at r r'
  simp only [bind_eq_ok] at r r'
  obtain ⟨g, e, r⟩ := r
  obtain ⟨g', e', r'⟩ := r'
  rw [pure_ok, Except.ok.injEq] at r r'
  have Q := P.reset hj e e'
  have key := (Q.chain hi hm (d := d) (d' := d') (cops := cops) rfl hs.first hs.luc hs.sun
    (src := fun y => src (y - d.nystart).toNat) (src' := fun y => src' (y - d.nystart).toNat)
    (f := fun y => f (y - d.nystart).toNat) (f' := fun y => f' (y - d.nystart).toNat)
    (v := fun y => v (y - d.nystart).toNat) (v' := fun y => v' (y - d.nystart).toNat)
    (by simp [← r]) (by simp [← r'])
    (fun y h1 h2 => by
      have a := st (y - d.nystart).toNat (by omega)
      rw [show d.nystart + ((y - d.nystart).toNat : ℤ) = y by omega,
        show (y - d.nystart).toNat + 1 = (y + 1 - d.nystart).toNat by omega] at a
      exact a)
    (fun y h1 h2 => by
      have a := st' (y - d.nystart).toNat (by have := hs.first; have := hs.last; omega)
      rw [hs.first, show d.nystart + ((y - d.nystart).toNat : ℤ) = y by omega,
        show (y - d.nystart).toNat + 1 = (y + 1 - d.nystart).toNat by omega] at a
      exact a)).2
  intro n hn
  have := key (d.nystart + n) (by omega) (by omega)
  simp only [show (d.nystart + (n : ℤ) - d.nystart).toNat = n by omega] at this
  exact ⟨this.1, this.2.1⟩

end

end Verif.Lemmas.Co2
