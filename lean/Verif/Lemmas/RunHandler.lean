import Verif.Lemmas.Agree
import Verif.Lemmas.Driver

/-! # The handler's states during a run -/

namespace Verif.Model.Driver
open Verif.Py Verif.Model Verif.Model.Handler

section
variable {F κ τ : Type} [Add F] [Sub F] [Mul F] [Div F] [Neg F] [OfScientific F] [LT F] [DecidableLT F]
  [MathFn F]

/-! ## What a year leaves alone -/

theorem emi2conc_frame {ops : CarbonOps F κ} {h h' : Handler F κ} {yr : ℤ} {fb : Option (Dict F)}
    (e : emi2conc ops h yr fb = .ok h') :
    Same h h' ∧ h'.forc = h.forc ∧ ∀ t y, y ≠ yr → h'.conc t y = h.conc t y := by
  obtain ⟨run, _, ⟨_, e⟩ | ⟨_, es, _, ⟨_, e⟩ | ⟨_, e⟩⟩⟩ := emi2conc_cases e
  · obtain ⟨s, f, -, -, c, -⟩ := fillOneRow_spec e
    exact ⟨s, f, fun t y hy => by rw [c, if_neg (fun x => hy x.1)]⟩
  · obtain ⟨-, s, f, -, -, c, -⟩ := beforeEmstart_spec e
    exact ⟨s, f, fun t y hy => by rw [c t y (Or.inr hy), if_neg (fun x => hy x.1)]⟩
  · have key := foldlM_inv (fun b : Handler F κ => Same h b ∧ b.forc = h.forc ∧
        ∀ t y, y ≠ yr → b.conc t y = h.conc t y)
      (by
        rintro b x b' ⟨s, f, c⟩ hx
        obtain ⟨s', f', -, -, c'⟩ := tracerStep_frame hx
        exact ⟨s.trans s', f'.trans f, fun t y hy => (c' t y (Or.inr hy)).trans (c t y hy)⟩)
      _ _ _ ⟨same_addRowOfZeros h yr, rfl, fun t y hy => by
        simp only [addRowOfZeros]; rw [if_neg (fun x => hy x.1)]⟩ e
    exact key

/-- Entries of other years are not touched by the forcing of a year. -/
structure AccFrame (h : Handler F κ) (yr : ℤ) (i : ℕ) (b : Acc F) : Prop where
  conc : ∀ t y, y ≠ yr → b.conc t y = h.conc t y
  forc : ∀ t j, j ≠ i → b.forc t j = h.forc t j

omit [Add F] [Sub F] [Mul F] [Div F] [Neg F] [OfScientific F] [LT F] [DecidableLT F] [MathFn F] in
theorem setForc_ne {f : String → ℕ → F} {k t : String} {i j : ℕ} {v : F} (hj : j ≠ i) :
    setForc f k i v t j = f t j := by
  unfold setForc; rw [if_neg (fun x => hj x.2)]

theorem tropO3Forcing_frame {h : Handler F κ} {b : Acc F} {yr : ℤ} {r : F × (String → ℤ → Option F)}
    (e : tropO3Forcing h b yr = .ok r) : ∀ t y, y ≠ yr → r.2 t y = b.conc t y := by
  unfold tropO3Forcing at e
  simp only [bind_eq_ok] at e
  obtain ⟨y0, h0, v, hv, -, -, v0, hv0, q, hq, e⟩ := e
  have key : ∀ t y, y ≠ yr → (if t = "TROP_O3" ∧ y = yr then some v else b.conc t y) = b.conc t y :=
    fun t y hy => by rw [if_neg (fun x => hy x.2)]
  split at e <;> rw [pure_ok, Except.ok.injEq] at e <;> subst e <;> exact key

theorem tracerForcing_frame {h : Handler F κ} {b : Acc F} {yr : ℤ} {i : ℕ} {luc : F} {t : String}
    {r : F × (String → ℤ → Option F)} (e : tracerForcing h yr luc b i t = .ok r) :
    ∀ t y, y ≠ yr → r.2 t y = b.conc t y := by
  unfold tracerForcing at e
  by_cases c1 : t = "LANDUSE"
  · rw [if_pos c1, Except.ok.injEq] at e; subst e; exact fun _ _ _ => rfl
  rw [if_neg c1] at e
  by_cases c2 : isAerosol t = true
  · rw [if_pos c2, bind_eq_ok] at e
    obtain ⟨q, -, e⟩ := e
    rw [pure_ok, Except.ok.injEq] at e; subst e; exact fun _ _ _ => rfl
  rw [if_neg c2] at e
  by_cases c3 : hasAlpha h t = true
  · rw [if_pos c3] at e
    simp only [bind_eq_ok] at e
    obtain ⟨y0, -, c, -, c0, -, g, -, e⟩ := e
    rw [pure_ok, Except.ok.injEq] at e; subst e; exact fun _ _ _ => rfl
  rw [if_neg c3] at e
  by_cases c4 : t = "TROP_O3"
  · rw [if_pos c4] at e
    simp only [bind_eq_ok] at e
    obtain ⟨q, hq, g, -, e⟩ := e
    rw [pure_ok, Except.ok.injEq] at e; subst e; exact fun t y hy => tropO3Forcing_frame hq t y hy
  rw [if_neg c4] at e
  by_cases c5 : t = "STRAT_H2O"
  · rw [if_pos c5] at e
    simp only [bind_eq_ok] at e
    obtain ⟨q, -, g, -, e⟩ := e
    rw [pure_ok, Except.ok.injEq] at e; subst e; exact fun _ _ _ => rfl
  rw [if_neg c5, Except.ok.injEq] at e; subst e; exact fun _ _ _ => rfl

omit [Div F] [Neg F] [LT F] [DecidableLT F] [MathFn F] in
theorem addPert_frame {h : Handler F κ} {y0 yr : ℤ} {i : ℕ} {b : Acc F} (hb : AccFrame h yr i b)
    (hi : (yr - y0).toNat = i) : AccFrame h yr i (addPert h y0 yr b) := by
  unfold addPert
  split
  · exact hb
  · rename_i rows _
    refine ⟨hb.conc, ?_⟩
    intro t j hj
    simp only
    rw [← hb.forc t j hj]
    unfold addForcingPert
    rw [hi]
    have key : ∀ (rs : List (PertRow F)) (s : ForcAcc F),
        (rs.foldl (addForcingPertStep h.forcKeys i) s).forc t j = s.forc t j := by
      intro rs
      induction rs with
      | nil => intro s; rfl
      | cons r rs ih =>
        intro s
        rw [List.foldl_cons, ih]
        unfold addForcingPertStep
        split
        · rfl
        · exact setForc_ne hj
    exact key _ _

theorem conc2forc_frame {h : Handler F κ} {yr : ℤ} {luc sun : F} {r : ForcResult F × Handler F κ}
    (e : conc2forc h yr luc sun = .ok r) :
    ∃ i, h.index yr = .ok i ∧ Same h r.2 ∧ r.2.carbon = h.carbon ∧ r.2.gas = h.gas ∧
      (∀ t y, y ≠ yr → r.2.conc t y = h.conc t y) ∧ (∀ t j, j ≠ i → r.2.forc t j = h.forc t j) := by
  unfold conc2forc at e
  simp only [bind_eq_ok] at e
  obtain ⟨b, hb, y0, h0, i, hi, c, hc, d, hd, f, hf, e⟩ := e
  have f1 : AccFrame h yr i b := by
    unfold threeMain at hb
    simp only [bind_eq_ok] at hb
    obtain ⟨_, _, _, _, _, _, _, _, _, _, _, _, _, _, _, _, _, _, _, _, i', hi', -, -, -, -, -, -, hb⟩ := hb
    rw [hi, Except.ok.injEq] at hi'
    subst hi'
    rw [pure_ok, Except.ok.injEq] at hb
    subst hb
    exact ⟨fun _ _ _ => rfl, fun t j hj => by
      simp only; rw [setForc_ne hj, setForc_ne hj, setForc_ne hj]⟩
  have f2 : AccFrame h yr i c := by
    refine foldlM_inv (fun b => AccFrame h yr i b) ?_ _ _ _ f1 hc
    intro b t b' hfb hx
    unfold forcStep at hx
    split at hx
    · rw [Except.ok.injEq] at hx; subst hx; exact hfb
    · rw [bind_eq_ok] at hx
      obtain ⟨q, hq, hx⟩ := hx
      rw [pure_ok, Except.ok.injEq] at hx
      subst hx
      refine ⟨fun t y hy => ?_, fun t j hj => ?_⟩
      · simp only; rw [tracerForcing_frame hq t y hy, hfb.conc t y hy]
      · simp only; rw [setForc_ne hj, hfb.forc t j hj]
  have f3 : AccFrame h yr i d := by
    unfold addVanilla at hd
    rw [bind_eq_ok] at hd
    obtain ⟨v, -, hd⟩ := hd
    rw [pure_ok, Except.ok.injEq] at hd
    subst hd
    exact ⟨f2.conc, f2.forc⟩
  have f4 := addPert_frame f3 (index_le hi h0).2.symm
  have f5 : AccFrame h yr i f := by
    unfold applyJustOne at hf
    split at hf
    · rw [Except.ok.injEq] at hf; subst hf; exact f4
    · rw [bind_eq_ok] at hf
      obtain ⟨k, -, hf⟩ := hf
      rw [pure_ok, Except.ok.injEq] at hf
      subst hf
      exact ⟨f4.conc, f4.forc⟩
  rw [pure_ok, Except.ok.injEq] at e
  subst e
  refine ⟨i, hi, ?_, rfl, rfl, f5.conc, ?_⟩
  · exact ⟨rfl, rfl, rfl, rfl, rfl, rfl, rfl, rfl, rfl, rfl, fun _ e => e,
      fun _ g e => ⟨g.natEm, e, fun _ _ => rfl⟩⟩
  · intro t j hj
    simp only [finishForc]
    rw [setForc_ne hj, f5.forc t j hj]

/-! ## The states by year -/

/-- One year of a run driven by a handler. -/
structure HandlerYear (cops : CarbonOps F κ) (tops : ThermalOps F τ) (d : Driver F κ)
    (s s' : RunState F κ τ) (h h1 h' : Handler F κ) (y : ℤ) (luc sun : F) (r : ForcResult F)
    (values : Dict F) (vn vs : List F) : Prop where
  emi : emi2conc cops h y (feedbackDict d.feedbackList s.values) = .ok h1
  lucE : rowOf d.luc (y - d.nystart) = .ok luc
  sunE : rowOf d.sun (y - d.nystart) = .ok sun
  forc : conc2forc h1 y luc sun = .ok (r, h')
  vnE : rowOf d.volcN (y - d.nystart) = .ok vn
  vsE : rowOf d.volcS (y - d.nystart) = .ok vs
  budget : tops.budget (tops.setFeedback s.thermal r.wAero) r.nh r.sh vn vs = .ok (values, s'.thermal)
  valuesE : s'.values = some values
  results : addYearData tops d s.results values r.tot (y - d.nystart) = .ok s'.results

theorem handler_trace {cops : CarbonOps F κ} {tops : ThermalOps F τ} {d d' : Driver F κ}
    {p : RunPams F} {t' : τ} {tr : ℤ → RunState F κ τ} (ht : Trace cops tops d p d' t' tr)
    {h0 : Handler F κ} (hsrc : d.source = .handler h0) :
    ∃ hs : ℤ → Handler F κ, resetWithNewPams cops h0 p.emiconc p.carbon = .ok (hs d.nystart) ∧
      (∀ y, d.nystart ≤ y → y ≤ d.nyend + 1 → (tr y).source = .handler (hs y)) ∧
      ∀ y, d.nystart ≤ y → y ≤ d.nyend → ∃ h1 luc sun r values vn vs,
        HandlerYear cops tops d (tr y) (tr (y + 1)) (hs y) h1 (hs (y + 1)) y luc sun r values vn vs := by
  have hreset := (startRun_spec ht.start).2.2.1
  rw [hsrc] at hreset
  unfold resetSource at hreset
  simp only [bind_eq_ok] at hreset
  obtain ⟨hr, hr1, hr2⟩ := hreset
  rw [pure_ok, Except.ok.injEq] at hr2
  have step : ∀ y h, d.nystart ≤ y → y ≤ d.nyend → (tr y).source = .handler h →
      ∃ h1 h' luc sun r values vn vs, (tr (y + 1)).source = .handler h' ∧
        HandlerYear cops tops d (tr y) (tr (y + 1)) h h1 h' y luc sun r values vn vs := by
    intro y h h1 h2 hs
    obtain ⟨f, vn, vs, values, a1, a2, a3, a4, a5, a6⟩ := yearStep_spec (ht.step y h1 h2)
    rw [hs] at a1
    unfold yearForcing at a1
    simp only [bind_eq_ok] at a1
    obtain ⟨m, e1, luc, e2, sun, e3, r, e4, a1⟩ := a1
    rw [pure_ok, Except.ok.injEq, Prod.mk.injEq] at a1
    obtain ⟨rfl, a1⟩ := a1
    exact ⟨m, r.2, luc, sun, r.1, values, vn, vs, a1.symm, e1, e2, e3, e4, a2, a3, a4, a5, a6⟩
  have all : ∀ y, d.nystart ≤ y → y ≤ d.nyend + 1 → ∃ h, (tr y).source = .handler h := by
    intro y h1 h2
    refine ht.keep (fun s => ∃ h, s.source = .handler h) d.nystart y h1 ?_ ⟨hr, hr2.symm⟩
    rintro z z1 z2 ⟨h, hz⟩
    obtain ⟨_, h', _, _, _, _, _, _, e, -⟩ := step z h z1 (by omega) hz
    exact ⟨h', e⟩
  have all' : ∀ y, ∃ h : Handler F κ, d.nystart ≤ y → y ≤ d.nyend + 1 → (tr y).source = .handler h := by
    intro y
    by_cases hy : d.nystart ≤ y ∧ y ≤ d.nyend + 1
    · obtain ⟨h, e⟩ := all y hy.1 hy.2; exact ⟨h, fun _ _ => e⟩
    · exact ⟨h0, fun a b => absurd ⟨a, b⟩ hy⟩
  choose hs hhs using all'
  refine ⟨hs, ?_, hhs, ?_⟩
  · have hle : d.nystart ≤ d.nyend + 1 := by
      have := (initialise_spec (startRun_spec ht.start).1).1; omega
    have := hhs d.nystart (le_refl _) hle
    rw [← hr2] at this
    cases this
    exact hr1
  · intro y h1 h2
    obtain ⟨h1', h', luc, sun, r, values, vn, vs, e, hy⟩ := step y (hs y) h1 h2 (hhs y h1 (by omega))
    rw [hhs (y + 1) (by omega) (by omega)] at e
    cases e
    exact ⟨h1', luc, sun, r, values, vn, vs, hy⟩

/-- The data fixed by the reset stay fixed, and the entries of a year are not changed by later years. -/
theorem handler_frozen {cops : CarbonOps F κ} {tops : ThermalOps F τ} {d : Driver F κ}
    {tr : ℤ → RunState F κ τ} {hs : ℤ → Handler F κ}
    (hy : ∀ y, d.nystart ≤ y → y ≤ d.nyend → ∃ h1 luc sun r values vn vs,
      HandlerYear cops tops d (tr y) (tr (y + 1)) (hs y) h1 (hs (y + 1)) y luc sun r values vn vs)
    {a b : ℤ} (ha : d.nystart ≤ a) (hab : a ≤ b) (hb : b ≤ d.nyend + 1) :
    Same (hs a) (hs b) ∧ (∀ t y, y < a → (hs b).conc t y = (hs a).conc t y) ∧
      (∀ t y i, y < a → (hs a).index y = .ok i → (hs b).forc t i = (hs a).forc t i) := by
  obtain ⟨n, rfl⟩ : ∃ n : ℕ, b = a + n := ⟨(b - a).toNat, by omega⟩
  clear hab
  induction n with
  | zero => rw [Nat.cast_zero, add_zero]; exact ⟨Same.refl _, fun _ _ _ => rfl, fun _ _ _ _ _ => rfl⟩
  | succ n ih =>
    obtain ⟨i1, i2, i3⟩ := ih (by push_cast at hb; omega)
    obtain ⟨h1, luc, sun, r, values, vn, vs, hyr⟩ := hy (a + n) (by omega) (by push_cast at hb; omega)
    have e : a + ((n + 1 : ℕ) : ℤ) = a + n + 1 := by push_cast; ring
    rw [e]
    obtain ⟨s1, f1, c1⟩ := emi2conc_frame hyr.emi
    obtain ⟨i, hi, s2, -, -, c2, f2⟩ := conc2forc_frame hyr.forc
    refine ⟨i1.trans (s1.trans s2), ?_, ?_⟩
    · intro t y hlt
      rw [c2 t y (by omega), c1 t y (by omega), i2 t y hlt]
    · intro t y j hlt hj
      have hne : j ≠ i := by
        intro e
        have hs' : (hs a).index (a + n) = .ok i := by
          rw [← i1.index, ← s1.index]; exact hi
        cases h0 : (hs a).y0 with
        | error er =>
          unfold Handler.index at hj; rw [h0] at hj; simp [bind_error] at hj
        | ok y0 =>
          have := index_le hj h0
          have := index_le hs' h0
          omega
      rw [f2 t j hne, f1, i3 t y j hlt hj]

end
end Verif.Model.Driver
