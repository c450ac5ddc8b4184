import Verif.Lemmas.Handler
import Verif.Lemmas.Frame

/-! # What one year of the handler changes -/

namespace Verif.Model.Handler
open Verif.Py Verif.Model

section
variable {F κ : Type}

/-- The data fixed during a run: everything but concentrations, forcings, the carbon state and the
natural emissions of methane and nitrous oxide. -/
structure Same (h h' : Handler F κ) : Prop where
  natCh4 : h'.natCh4 = h.natCh4
  natN2o : h'.natN2o = h.natN2o
  concIn : h'.concIn = h.concIn
  emis : h'.emis = h.emis
  pam : h'.pam = h.pam
  pert : h'.pert = h.pert
  years : h'.years = h.years
  prec : h'.prec = h.prec
  concKeys : h'.concKeys = h.concKeys
  forcKeys : h'.forcKeys = h.forcKeys
  gasNone : ∀ t, h.gas.get? t = none → h'.gas.get? t = none
  gasSome : ∀ t g, h.gas.get? t = some g → ∃ e, h'.gas.get? t = some { g with natEm := e } ∧
    (t ≠ "CH4" → t ≠ "N2O" → e = g.natEm)

theorem Same.refl (h : Handler F κ) : Same h h :=
  ⟨rfl, rfl, rfl, rfl, rfl, rfl, rfl, rfl, rfl, rfl, fun _ e => e, fun _ g e => ⟨g.natEm, e, fun _ _ => rfl⟩⟩

theorem Same.trans {h h' h'' : Handler F κ} (a : Same h h') (b : Same h' h'') : Same h h'' where
  natCh4 := b.natCh4.trans a.natCh4
  natN2o := b.natN2o.trans a.natN2o
  concIn := b.concIn.trans a.concIn
  emis := b.emis.trans a.emis
  pam := b.pam.trans a.pam
  pert := b.pert.trans a.pert
  years := b.years.trans a.years
  prec := b.prec.trans a.prec
  concKeys := b.concKeys.trans a.concKeys
  forcKeys := b.forcKeys.trans a.forcKeys
  gasNone := fun t e => b.gasNone t (a.gasNone t e)
  gasSome := by
    intro t g e
    obtain ⟨e1, h1, h2⟩ := a.gasSome t g e
    obtain ⟨e2, h3, h4⟩ := b.gasSome t _ h1
    exact ⟨e2, h3, fun x y => (h4 x y).trans (h2 x y)⟩

theorem Same.gas_of_some {h h' : Handler F κ} (s : Same h h') {t : String} {g : Gas F}
    (e : h'.gas.get? t = some g) : ∃ g0, h.gas.get? t = some g0 ∧ g = { g0 with natEm := g.natEm } := by
  cases h0 : h.gas.get? t with
  | none => rw [s.gasNone t h0] at e; cases e
  | some g0 =>
    obtain ⟨x, hx, _⟩ := s.gasSome t g0 h0
    rw [hx] at e
    simp only [Option.some.injEq] at e
    subst e
    exact ⟨g0, rfl, rfl⟩

theorem same_setConc (h : Handler F κ) (t : String) (y : ℤ) (v : F) : Same h (h.setConc t y v) :=
  ⟨rfl, rfl, rfl, rfl, rfl, rfl, rfl, rfl, rfl, rfl, fun _ e => e,
    fun _ g e => ⟨g.natEm, e, fun _ _ => rfl⟩⟩

/-- Only concentrations, forcings and the carbon state differ. -/
theorem same_of_gas {h h' : Handler F κ} (s : Same h h') (c : String → ℤ → Option F)
    (f : String → ℕ → F) (k : κ) : Same h { h' with conc := c, forc := f, carbon := k } :=
  ⟨s.natCh4, s.natN2o, s.concIn, s.emis, s.pam, s.pert, s.years, s.prec, s.concKeys, s.forcKeys,
    s.gasNone, s.gasSome⟩

section ops
variable [Add F] [Sub F] [Mul F] [Div F] [Neg F] [OfScientific F] [LT F] [DecidableLT F] [MathFn F]

theorem setNatEm_spec {h h' : Handler F κ} {t : String} {yr : ℤ} (e : setNatEm h t yr = .ok h') :
    Same h h' ∧ h'.conc = h.conc ∧ h'.forc = h.forc ∧ h'.carbon = h.carbon ∧
      (∀ g, h'.gas.get? t = some g → g.natEm =
        (if t = "CH4" then h.natCh4.cell "CH4" yr else if t = "N2O" then h.natN2o.cell "N2O" yr
         else ((h.gas.get? t).map Gas.natEm).getD g.natEm)) ∧
      (∀ t', t' ≠ t → h'.gas.get? t' = h.gas.get? t') := by
  have aux : ∀ (v : F) (g : Gas F), (t = "CH4" ∨ t = "N2O") → h.gasAt t = .ok g →
      Same h { h with gas := Dict.set h.gas t { g with natEm := v } } := by
    intro v g ht hg
    unfold Handler.gasAt Dict.getE at hg
    split at hg
    · rename_i g' hg'
      rw [Except.ok.injEq] at hg
      subst hg
      refine ⟨rfl, rfl, rfl, rfl, rfl, rfl, rfl, rfl, rfl, rfl, ?_, ?_⟩
      · intro t' e'
        simp only [Dict.get?_set]
        split
        · rename_i htt; subst htt; rw [hg'] at e'; cases e'
        · exact e'
      · intro t' g'' e'
        simp only [Dict.get?_set]
        split
        · rename_i htt
          subst htt
          rw [hg'] at e'
          simp only [Option.some.injEq] at e'
          subst e'
          refine ⟨v, rfl, ?_⟩
          intro h1 h2
          rcases ht with h | h
          · exact absurd h h1
          · exact absurd h h2
        · exact ⟨g''.natEm, e', fun _ _ => rfl⟩
    · cases hg
  unfold setNatEm at e
  split at e
  · rename_i ht
    rw [bind_eq_ok] at e
    obtain ⟨v, hv, e⟩ := e
    rw [bind_eq_ok] at e
    obtain ⟨g, hg, e⟩ := e
    rw [pure_ok, Except.ok.injEq] at e
    subst e
    refine ⟨aux v g (Or.inl ht) hg, rfl, rfl, rfl, ?_, ?_⟩
    · intro g'
      simp only [Dict.get?_set, if_true]
      intro e
      simp only [Option.some.injEq] at e
      subst e
      rw [if_pos ht]
      exact (frame_at'_eq_ok.1 hv).2.2.symm
    · intro t' h'
      simp only [Dict.get?_set, Ne.symm h', if_false]
  · split at e
    · rename_i ht1 ht
      rw [bind_eq_ok] at e
      obtain ⟨v, hv, e⟩ := e
      rw [bind_eq_ok] at e
      obtain ⟨g, hg, e⟩ := e
      rw [pure_ok, Except.ok.injEq] at e
      subst e
      refine ⟨aux v g (Or.inr ht) hg, rfl, rfl, rfl, ?_, ?_⟩
      · intro g'
        simp only [Dict.get?_set, if_true]
        intro e
        simp only [Option.some.injEq] at e
        subst e
        rw [if_neg ht1, if_pos ht]
        exact (frame_at'_eq_ok.1 hv).2.2.symm
      · intro t' h'
        simp only [Dict.get?_set, Ne.symm h', if_false]
    · rename_i h1 h2
      rw [Except.ok.injEq] at e
      subst e
      refine ⟨Same.refl _, rfl, rfl, rfl, ?_, fun _ _ => rfl⟩
      intro g hg
      rw [if_neg h1, if_neg h2, hg]
      rfl

/-! ## Reading one row of prescribed concentrations -/

theorem fillStep_spec {h h' : Handler F κ} {yr : ℤ} {avoid : List String} {t : String}
    (e : fillStep yr avoid h t = .ok h') :
    (t ∈ avoid ∧ h' = h) ∨
    (t ∉ avoid ∧ (t ∈ h.concIn.cols → yr ∈ h.concIn.idx) ∧
      h' = h.setConc t yr (if t ∈ h.concIn.cols then h.concIn.cell t yr else 0.0)) := by
  unfold fillStep at e
  split at e
  · rename_i ha
    rw [Except.ok.injEq] at e
    exact Or.inl ⟨ha, e.symm⟩
  · rename_i ha
    refine Or.inr ⟨ha, ?_⟩
    split at e
    · rename_i hc
      rw [bind_eq_ok] at e
      obtain ⟨v, hv, e⟩ := e
      rw [pure_ok, Except.ok.injEq] at e
      obtain ⟨_, h2, h3⟩ := frame_at'_eq_ok.1 hv
      refine ⟨fun _ => h2, ?_⟩
      rw [if_pos hc, h3, e]
    · rename_i hc
      rw [Except.ok.injEq] at e
      refine ⟨fun h => absurd h hc, ?_⟩
      rw [if_neg hc, e]

theorem fill_spec {yr : ℤ} {avoid : List String} : ∀ (ks : List String) (h h' : Handler F κ),
    ks.foldlM (fillStep yr avoid) h = .ok h' →
    Same h h' ∧ h'.forc = h.forc ∧ h'.carbon = h.carbon ∧ h'.gas = h.gas ∧
    (∀ t y, h'.conc t y = if y = yr ∧ t ∈ ks ∧ t ∉ avoid then
        some (if t ∈ h.concIn.cols then h.concIn.cell t yr else 0.0) else h.conc t y) ∧
    (∀ t ∈ ks, t ∉ avoid → t ∈ h.concIn.cols → yr ∈ h.concIn.idx)
  | [], h, h', e => by
    rw [foldlM_nil_ok] at e
    subst e
    exact ⟨Same.refl _, rfl, rfl, rfl, fun t y => by simp, by simp⟩
  | k :: ks, h, h', e => by
    obtain ⟨b, h1, h2⟩ := foldlM_cons_ok.1 e
    obtain ⟨i1, i2, i3, i4, i5, i6⟩ := fill_spec ks b h' h2
    rcases fillStep_spec h1 with ⟨ha, rfl⟩ | ⟨ha, hidx, rfl⟩
    · refine ⟨i1, i2, i3, i4, ?_, ?_⟩
      · intro t y
        rw [i5]
        by_cases hk : t = k
        · subst hk; simp [ha]
        · simp [hk]
      · intro t ht hta
        rcases List.mem_cons.1 ht with rfl | ht
        · exact absurd ha hta
        · exact i6 t ht hta
    · refine ⟨(same_setConc h k yr _).trans i1, i2, i3, i4, ?_, ?_⟩
      · intro t y
        rw [i5]
        by_cases hy : y = yr
        · by_cases hk : t = k
          · subst hk
            subst hy
            simp [ha, Handler.setConc]
            intro _; rfl
          · simp [hk, hy, Handler.setConc]
            rfl
        · simp [hy, Handler.setConc]
      · intro t ht hta
        rcases List.mem_cons.1 ht with rfl | ht
        · exact hidx
        · exact i6 t ht hta

theorem fillOneRow_spec {h h' : Handler F κ} {yr : ℤ} {avoid : List String}
    (e : fillOneRow h yr avoid = .ok h') :
    Same h h' ∧ h'.forc = h.forc ∧ h'.carbon = h.carbon ∧ h'.gas = h.gas ∧
    (∀ t y, h'.conc t y = if y = yr ∧ t ∈ h.concKeys ∧ t ∉ avoid then
        some (if t ∈ h.concIn.cols then h.concIn.cell t yr else 0.0) else h.conc t y) ∧
    (∀ t ∈ h.concKeys, t ∉ avoid → t ∈ h.concIn.cols → yr ∈ h.concIn.idx) :=
  fill_spec h.concKeys h h' e

/-! ## What depends on fixed data only -/

theorem gasAt_eq_ok {h : Handler F κ} {t : String} {g : Gas F} :
    h.gasAt t = .ok g ↔ h.gas.get? t = some g := by
  unfold Handler.gasAt Dict.getE
  cases h.gas.get? t <;> simp

theorem Same.y0 {h h' : Handler F κ} (s : Same h h') : h'.y0 = h.y0 := by
  unfold Handler.y0; rw [s.years]

theorem Same.index {h h' : Handler F κ} (s : Same h h') (yr : ℤ) : h'.index yr = h.index yr := by
  unfold Handler.index; rw [s.y0, s.years]

theorem Same.dlnOh {h h' : Handler F κ} (s : Same h h') (c : F) (yr : ℤ) :
    Handler.dlnOh h' c yr = Handler.dlnOh h c yr := by
  unfold Handler.dlnOh; rw [s.emis]

theorem Same.lifetimeMode {h h' : Handler F κ} (s : Same h h') (q c : F) (yr : ℤ) :
    Handler.lifetimeMode h' q c yr = Handler.lifetimeMode h q c yr := by
  unfold Handler.lifetimeMode; rw [s.pam]; simp only [s.dlnOh]

theorem Same.methaneLifetime {h h' : Handler F κ} (s : Same h h') (q c : F) (yr : ℤ) :
    Handler.methaneLifetime h' q c yr = Handler.methaneLifetime h q c yr := by
  unfold Handler.methaneLifetime
  rw [s.lifetimeMode]
  cases Handler.lifetimeMode h q c yr with
  | error e => rfl
  | ok q' =>
    simp only [bind_ok]
    unfold Handler.gasAt Dict.getE
    cases hg : h.gas.get? "CH4" with
    | none => rw [s.gasNone _ hg]
    | some g =>
      obtain ⟨e, he, _⟩ := s.gasSome _ _ hg
      rw [he]
      rfl

theorem Same.decayRate {h h' : Handler F κ} (s : Same h h') (t : String) (c : F) (yr : ℤ) :
    Handler.decayRate h' t c yr = Handler.decayRate h t c yr := by
  unfold Handler.decayRate Handler.gasAt Dict.getE
  cases hg : h.gas.get? t with
  | none => rw [s.gasNone _ hg]; rfl
  | some g =>
    obtain ⟨e, he, _⟩ := s.gasSome _ _ hg
    rw [he]
    simp only [bind_ok, s.methaneLifetime]

theorem Same.co2Emissions {h h' : Handler F κ} (s : Same h h') (yr : ℤ) :
    Handler.co2Emissions h' yr = Handler.co2Emissions h yr := by
  unfold Handler.co2Emissions Handler.gasAt Dict.getE
  rw [s.emis]
  cases hg : h.gas.get? "CO2" with
  | none => rw [s.gasNone _ hg]
  | some g =>
    obtain ⟨e, he, h2⟩ := s.gasSome _ _ hg
    rw [he, h2 (by decide) (by decide)]

theorem concLocal_congr {h h' : Handler F κ} (s : Same h h') {t : String} {yr : ℤ}
    (hc : h'.conc t (yr - 1) = h.conc t (yr - 1)) :
    Handler.concLocal h' t yr = Handler.concLocal h t yr := by
  unfold Handler.concLocal Handler.concAt
  rw [s.y0, s.concKeys, s.concIn, hc]

/-! ## One tracer computed from emissions -/

/-- Natural emissions used for a tracer in a year. -/
def natOf (h : Handler F κ) (t : String) (g : Gas F) (yr : ℤ) : F :=
  if t = "CH4" then h.natCh4.cell "CH4" yr else if t = "N2O" then h.natN2o.cell "N2O" yr
  else g.natEm

theorem otherStep_spec {h h' : Handler F κ} {t : String} {yr : ℤ} (e : otherStep yr h t = .ok h') :
    Same h h' ∧ h'.forc = h.forc ∧ h'.carbon = h.carbon ∧
    (∀ t', t' ≠ t → h'.gas.get? t' = h.gas.get? t') ∧
    ∃ cl q em g, h.gas.get? t = some g ∧ concLocal h t yr = .ok cl ∧ decayRate h t cl yr = .ok q ∧
      h.emis.at' t yr = .ok em ∧
      ∀ t' y, h'.conc t' y = if t' = t ∧ y = yr then
        some (concUpdate g.beta (em + natOf h t g yr) q cl) else h.conc t' y := by
  unfold otherStep at e
  simp only [bind_eq_ok] at e
  obtain ⟨cl, hcl, h1, hh1, q, hq, g, hg, em, hem, e⟩ := e
  rw [pure_ok, Except.ok.injEq] at e
  obtain ⟨s, c1, c2, c3, c4, c5⟩ := setNatEm_spec hh1
  rw [s.decayRate] at hq
  rw [s.emis] at hem
  rw [gasAt_eq_ok] at hg
  obtain ⟨g0, hg0, hgg⟩ := s.gas_of_some hg
  have hb : g.beta = g0.beta := by rw [hgg]
  have hn : g.natEm = natOf h t g0 yr := by
    rw [c4 g hg]
    unfold natOf
    rw [hg0]
    rfl
  subst e
  refine ⟨s.trans (same_setConc _ _ _ _), c2, c3, c5, cl, q, em, g0, hg0, hcl, hq, hem, ?_⟩
  intro t' y
  simp only [Handler.setConc]
  rw [hb, hn, c1]

theorem co2Step_spec {ops : CarbonOps F κ} {h h' : Handler F κ} {yr : ℤ} {fb : Option (Dict F)}
    (e : co2Step ops yr fb h = .ok h') :
    Same h h' ∧ h'.forc = h.forc ∧ h'.gas = h.gas ∧
    ∃ em r, co2Emissions h yr = .ok em ∧ ops.step h.carbon yr em fb = .ok r ∧ h'.carbon = r.2 ∧
      ∀ t y, h'.conc t y = if t = "CO2" ∧ y = yr then some r.1 else h.conc t y := by
  unfold co2Step at e
  simp only [bind_eq_ok] at e
  obtain ⟨em, hem, r, hr, e⟩ := e
  rw [pure_ok, Except.ok.injEq] at e
  subst e
  exact ⟨⟨rfl, rfl, rfl, rfl, rfl, rfl, rfl, rfl, rfl, rfl, fun _ e => e,
    fun _ g e => ⟨g.natEm, e, fun _ _ => rfl⟩⟩, rfl, rfl, em, r, hem, hr, rfl, fun t y => rfl⟩

/-- The effect of one tracer. -/
theorem tracerStep_spec {ops : CarbonOps F κ} {h h' : Handler F κ} {yr : ℤ} {fb : Option (Dict F)}
    {t : String} (e : tracerStep ops yr fb h t = .ok h') :
    ∃ g, h.gas.get? t = some g ∧
    ((g.concUnit = "-" ∧ h' = h) ∨
     (g.concUnit ≠ "-" ∧ t = "CO2" ∧ co2Step ops yr fb h = .ok h') ∨
     (g.concUnit ≠ "-" ∧ t ≠ "CO2" ∧ otherStep yr h t = .ok h')) := by
  unfold tracerStep at e
  rw [bind_eq_ok] at e
  obtain ⟨g, hg, e⟩ := e
  refine ⟨g, gasAt_eq_ok.1 hg, ?_⟩
  split at e
  · rename_i hu
    rw [Except.ok.injEq] at e
    exact Or.inl ⟨hu, e.symm⟩
  · rename_i hu
    split at e
    · rename_i ht
      exact Or.inr (Or.inl ⟨hu, ht, e⟩)
    · rename_i ht
      exact Or.inr (Or.inr ⟨hu, ht, e⟩)

theorem tracerStep_frame {ops : CarbonOps F κ} {h h' : Handler F κ} {yr : ℤ} {fb : Option (Dict F)}
    {t : String} (e : tracerStep ops yr fb h t = .ok h') :
    Same h h' ∧ h'.forc = h.forc ∧ (t ≠ "CO2" → h'.carbon = h.carbon) ∧
    (∀ t', t' ≠ t → h'.gas.get? t' = h.gas.get? t') ∧
    (∀ t' y, (t' ≠ t ∨ y ≠ yr) → h'.conc t' y = h.conc t' y) := by
  obtain ⟨g, _, ⟨_, rfl⟩ | ⟨_, ht, e⟩ | ⟨_, ht, e⟩⟩ := tracerStep_spec e
  · exact ⟨Same.refl _, rfl, fun _ => rfl, fun _ _ => rfl, fun _ _ _ => rfl⟩
  · obtain ⟨s, f, gq, em, r, _, _, _, hc⟩ := co2Step_spec e
    refine ⟨s, f, fun h => absurd ht h, fun _ _ => by rw [gq], ?_⟩
    intro t' y hor
    rw [hc, if_neg]
    rintro ⟨rfl, rfl⟩
    rcases hor with h | h
    · exact h ht.symm
    · exact h rfl
  · obtain ⟨s, f, c, gq, cl, q, em, g', _, _, _, _, hc⟩ := otherStep_spec e
    refine ⟨s, f, fun _ => c, gq, ?_⟩
    intro t' y hor
    rw [hc, if_neg]
    rintro ⟨rfl, rfl⟩
    rcases hor with h | h
    · exact h rfl
    · exact h rfl

/-- What the loop over the tracers leaves behind. -/
theorem tracerLoop_spec {ops : CarbonOps F κ} {yr : ℤ} {fb : Option (Dict F)} :
    ∀ (ks : List String) (h h' : Handler F κ), ks.Nodup →
      ks.foldlM (tracerStep ops yr fb) h = .ok h' →
      Same h h' ∧ h'.forc = h.forc ∧
      (∀ t y, (t ∉ ks ∨ y ≠ yr) → h'.conc t y = h.conc t y) ∧
      (∀ t ∈ ks, ∃ g, h.gas.get? t = some g ∧
        (g.concUnit = "-" → h'.conc t yr = h.conc t yr) ∧
        (g.concUnit ≠ "-" → t ≠ "CO2" → ∃ cl q em, concLocal h t yr = .ok cl ∧
          decayRate h t cl yr = .ok q ∧ h.emis.at' t yr = .ok em ∧
          h'.conc t yr = some (concUpdate g.beta (em + natOf h t g yr) q cl)) ∧
        (g.concUnit ≠ "-" → t = "CO2" → ∃ em r, co2Emissions h yr = .ok em ∧
          ops.step h.carbon yr em fb = .ok r ∧ h'.conc "CO2" yr = some r.1 ∧ h'.carbon = r.2)) ∧
      (("CO2" ∉ ks ∨ ∀ g, h.gas.get? "CO2" = some g → g.concUnit = "-") → h'.carbon = h.carbon)
  | [], h, h', _, e => by
    rw [foldlM_nil_ok] at e
    subst e
    exact ⟨Same.refl _, rfl, fun _ _ _ => rfl, by simp, fun _ => rfl⟩
  | k :: ks, h, h', hnd, e => by
    obtain ⟨b, h1, h2⟩ := foldlM_cons_ok.1 e
    obtain ⟨hnk, hnd'⟩ := List.nodup_cons.1 hnd
    obtain ⟨i1, i2, i3, i4, i5⟩ := tracerLoop_spec ks b h' hnd' h2
    obtain ⟨f1, f2, f3, f4, f5⟩ := tracerStep_frame h1
    refine ⟨f1.trans i1, i2.trans f2, ?_, ?_, ?_⟩
    · intro t y hor
      have hk' : t ∉ ks ∨ y ≠ yr := by
        rcases hor with h | h
        · exact Or.inl fun hm => h (List.mem_cons_of_mem _ hm)
        · exact Or.inr h
      rw [i3 t y hk', f5]
      rcases hor with h | h
      · exact Or.inl fun hh => h (hh ▸ List.mem_cons_self)
      · exact Or.inr h
    · intro t ht
      rcases List.mem_cons.1 ht with rfl | ht
      · obtain ⟨g, hg, hcase⟩ := tracerStep_spec h1
        have hkeep : h'.conc t yr = b.conc t yr := i3 t yr (Or.inl hnk)
        refine ⟨g, hg, ?_, ?_, ?_⟩
        · intro hu
          rcases hcase with ⟨_, rfl⟩ | ⟨hu', _⟩ | ⟨hu', _⟩
          · exact hkeep
          · exact absurd hu hu'
          · exact absurd hu hu'
        · intro hu hne
          rcases hcase with ⟨hu', _⟩ | ⟨_, h', _⟩ | ⟨_, _, e⟩
          · exact absurd hu' hu
          · exact absurd h' hne
          · obtain ⟨_, _, _, _, cl, q, em, g', hg', c1, c2, c3, c4⟩ := otherStep_spec e
            rw [hg] at hg'
            obtain rfl : g = g' := by simpa using hg'
            refine ⟨cl, q, em, c1, c2, c3, ?_⟩
            rw [hkeep, c4]
            simp
        · intro hu heq
          rcases hcase with ⟨hu', _⟩ | ⟨_, _, e⟩ | ⟨_, h', _⟩
          · exact absurd hu' hu
          · obtain ⟨_, _, _, em, r, c1, c2, c3, c4⟩ := co2Step_spec e
            refine ⟨em, r, c1, c2, ?_, ?_⟩
            · rw [← heq, hkeep, c4]
              simp [heq]
            · rw [i5 (Or.inl (heq ▸ hnk)), c3]
          · exact absurd heq h'
      · have hne : t ≠ k := fun hh => hnk (hh ▸ ht)
        obtain ⟨g, hg, j1, j2, j3⟩ := i4 t ht
        rw [f4 t hne] at hg
        refine ⟨g, hg, ?_, ?_, ?_⟩
        · intro hu
          rw [j1 hu, f5 t yr (Or.inl hne)]
        · intro hu hco2
          obtain ⟨cl, q, em, c1, c2, c3, c4⟩ := j2 hu hco2
          refine ⟨cl, q, em, ?_, ?_, ?_, ?_⟩
          · rw [← concLocal_congr f1 (f5 t (yr - 1) (Or.inl hne))]; exact c1
          · rw [← f1.decayRate]; exact c2
          · rw [← f1.emis]; exact c3
          · rw [c4]
            unfold natOf
            rw [f1.natCh4, f1.natN2o]
        · intro hu heq
          obtain ⟨em, r, c1, c2, c3, c4⟩ := j3 hu heq
          refine ⟨em, r, ?_, ?_, c3, c4⟩
          · rw [← f1.co2Emissions]; exact c1
          · rw [← f3 (fun hk => hne (heq.trans hk.symm))]; exact c2
    · intro hor
      obtain ⟨g, hg, hcase⟩ := tracerStep_spec h1
      by_cases hk : k = "CO2"
      · rw [i5 (Or.inl (hk ▸ hnk))]
        rcases hcase with ⟨_, rfl⟩ | ⟨hu', _, _⟩ | ⟨_, h', _⟩
        · rfl
        · rcases hor with h | h
          · exact absurd (hk ▸ List.mem_cons_self) h
          · exact absurd (h g (hk ▸ hg)) hu'
        · exact absurd hk h'
      · rw [i5, f3 hk]
        rcases hor with h | h
        · exact Or.inl fun hm => h (List.mem_cons_of_mem _ hm)
        · refine Or.inr ?_
          rw [f4 "CO2" (Ne.symm hk)]
          exact h

/-! ## The whole step -/

theorem same_addRowOfZeros (h : Handler F κ) (yr : ℤ) : Same h (addRowOfZeros h yr) :=
  ⟨rfl, rfl, rfl, rfl, rfl, rfl, rfl, rfl, rfl, rfl, fun _ e => e,
    fun _ g e => ⟨g.natEm, e, fun _ _ => rfl⟩⟩

theorem beforeStart_of_int {p : Dict (PyVal F)} {es : ℤ} (e : pamI p "emstart" = .ok es) (yr : ℤ) :
    beforeStart p yr = .ok (decide (yr < es)) := by
  unfold pamI at e
  unfold beforeStart
  rw [bind_eq_ok] at e
  obtain ⟨v, hv, e⟩ := e
  rw [hv, bind_ok]
  split at e
  · rename_i x hx
    rw [Except.ok.injEq] at e
    subst e
    unfold yearLt
    rw [hx]
  · cases e

/-- The three cases of `emi2conc`. -/
theorem emi2conc_cases {ops : CarbonOps F κ} {h h' : Handler F κ} {yr : ℤ} {fb : Option (Dict F)}
    (e : emi2conc ops h yr fb = .ok h') :
    ∃ run, pamB h.pam "conc_run" = .ok run ∧
    ((run = true ∧ fillOneRow h yr [] = .ok h') ∨
     (run = false ∧ ∃ before, beforeStart h.pam yr = .ok before ∧
      ((before = true ∧ beforeEmstart ops h yr fb = .ok h') ∨
       (before = false ∧ h.concKeys.foldlM (tracerStep ops yr fb) (addRowOfZeros h yr) = .ok h')))) := by
  unfold emi2conc at e
  rw [bind_eq_ok] at e
  obtain ⟨run, hr, e⟩ := e
  refine ⟨run, hr, ?_⟩
  cases run with
  | true => exact Or.inl ⟨rfl, by simpa using e⟩
  | false =>
    refine Or.inr ⟨rfl, ?_⟩
    simp only [Bool.false_eq_true, if_false] at e
    rw [bind_eq_ok] at e
    obtain ⟨es, hes, e⟩ := e
    refine ⟨es, hes, ?_⟩
    split at e
    · rename_i hl; exact Or.inl ⟨hl, e⟩
    · rename_i hl; exact Or.inr ⟨by simpa using hl, e⟩

theorem beforeEmstart_spec {ops : CarbonOps F κ} {h h' : Handler F κ} {yr : ℤ}
    {fb : Option (Dict F)} (e : beforeEmstart ops h yr fb = .ok h') :
    "CO2" ∈ h.concKeys ∧ Same h h' ∧ h'.forc = h.forc ∧ h'.gas = h.gas ∧
    (∃ em r, co2Emissions h yr = .ok em ∧ ops.step h.carbon yr em fb = .ok r ∧ h'.carbon = r.2 ∧
      h'.conc "CO2" yr = some r.1) ∧
    (∀ t y, t ≠ "CO2" ∨ y ≠ yr → h'.conc t y = if y = yr ∧ t ∈ h.concKeys then
        some (if t ∈ h.concIn.cols then h.concIn.cell t yr else 0.0) else h.conc t y) ∧
    (∀ t ∈ h.concKeys, t ≠ "CO2" → t ∈ h.concIn.cols → yr ∈ h.concIn.idx) := by
  unfold beforeEmstart at e
  rw [bind_eq_ok] at e
  obtain ⟨b, hb, e⟩ := e
  obtain ⟨s, f, gq, em, r, c1, c2, c3, c4⟩ := co2Step_spec hb
  split at e
  · rename_i hk
    rw [s.concKeys] at hk
    obtain ⟨j1, j2, j3, j4, j5, j6⟩ := fillOneRow_spec e
    rw [s.concKeys, s.concIn] at j5 j6
    refine ⟨hk, s.trans j1, j2.trans f, j4.trans gq, ⟨em, r, c1, c2, j3.trans c3, ?_⟩, ?_, ?_⟩
    · rw [j5, if_neg (by simp), c4]
      simp
    · intro t y hor
      rw [j5, c4]
      by_cases hy : y = yr
      · have ht : t ≠ "CO2" := by
          rcases hor with h | h
          · exact h
          · exact absurd hy h
        simp [hy, ht]
      · simp [hy]
    · intro t ht hne
      exact j6 t ht (by simpa using hne)
  · cases e

/-- A year of concentrations only changes concentrations of that year, the carbon state and the
natural emissions. -/
theorem emi2conc_same {ops : CarbonOps F κ} {h h' : Handler F κ} {yr : ℤ} {fb : Option (Dict F)}
    (e : emi2conc ops h yr fb = .ok h') (hnd : h.concKeys.Nodup) :
    Same h h' ∧ h'.forc = h.forc ∧
      ∀ t y, (t ∉ h.concKeys ∨ y ≠ yr) → h'.conc t y = h.conc t y := by
  obtain ⟨run, _, ⟨_, e⟩ | ⟨_, es, _, ⟨_, e⟩ | ⟨_, e⟩⟩⟩ := emi2conc_cases e
  · obtain ⟨s, f, -, -, c, -⟩ := fillOneRow_spec e
    refine ⟨s, f, ?_⟩
    intro t y hor
    rw [c, if_neg]
    rintro ⟨rfl, h2, _⟩
    rcases hor with h | h
    · exact h h2
    · exact h rfl
  · obtain ⟨hk, s, f, -, -, c, -⟩ := beforeEmstart_spec e
    refine ⟨s, f, ?_⟩
    intro t y hor
    have : t ≠ "CO2" ∨ y ≠ yr := by
      rcases hor with h | h
      · exact Or.inl fun hh => h (hh ▸ hk)
      · exact Or.inr h
    rw [c t y this, if_neg]
    rintro ⟨rfl, h2⟩
    rcases hor with h | h
    · exact h h2
    · exact h rfl
  · obtain ⟨s, f, c, -, -⟩ := tracerLoop_spec _ _ _ hnd e
    refine ⟨(same_addRowOfZeros h yr).trans s, f, ?_⟩
    intro t y hor
    rw [c t y hor]
    simp only [addRowOfZeros]
    rw [if_neg]
    rintro ⟨rfl, h2⟩
    rcases hor with h | h
    · exact h h2
    · exact h rfl

end ops
end
end Verif.Model.Handler
