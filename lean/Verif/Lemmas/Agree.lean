import Verif.Lemmas.HandlerState

/-!
# Two handlers that agree on a set of years

Used for "no look-ahead" (C16) and for re-runs (C03): running two handlers through a year keeps them
in agreement, whatever they contain outside the years they agree on.
-/

namespace Verif.Model.Handler
open Verif.Py Verif.Model

section
variable {F κ : Type} [Add F] [Sub F] [Mul F] [Div F] [Neg F] [OfScientific F] [LT F] [DecidableLT F]
  [MathFn F]

/-- A row of the gas table without the part a run overwrites. -/
def canon (t : String) (g : Gas F) : Gas F :=
  if t = "CH4" ∨ t = "N2O" then { g with natEm := 0.0 } else g

/-- The parameters a run does not read after construction. -/
def frozenNums : List String := ["idtm", "nystart", "nyend", "emstart"]

/-- The two parameter sets have the same effect in a run. -/
structure PamAgree (p p' : Dict (PyVal F)) : Prop where
  same : ∀ k, k ∉ frozenNums → p'.get? k = p.get? k
  before : ∀ yr, beforeStart p' yr = beforeStart p yr

theorem PamAgree.refl (p : Dict (PyVal F)) : PamAgree p p := ⟨fun _ _ => rfl, fun _ => rfl⟩

theorem PamAgree.getE {p p' : Dict (PyVal F)} (a : PamAgree p p') {k : String} (hk : k ∉ frozenNums) :
    p'.getE k = p.getE k := by
  unfold Dict.getE; rw [a.same k hk]

theorem PamAgree.pamF {p p' : Dict (PyVal F)} (a : PamAgree p p') {k : String} (hk : k ∉ frozenNums) :
    pamF p' k = pamF p k := by
  unfold Handler.pamF; rw [a.getE hk]

theorem PamAgree.pamI {p p' : Dict (PyVal F)} (a : PamAgree p p') {k : String} (hk : k ∉ frozenNums) :
    pamI p' k = pamI p k := by
  unfold Handler.pamI; rw [a.getE hk]

theorem PamAgree.pamB {p p' : Dict (PyVal F)} (a : PamAgree p p') {k : String} (hk : k ∉ frozenNums) :
    pamB p' k = pamB p k := by
  unfold Handler.pamB; rw [a.getE hk]

/-- Agreement: carbon cycle states related by `C`, emissions on `E`, prescribed concentrations on `K`,
everything else on the years `Y`. -/
structure Agree (C : κ → κ → Prop) (E K : String → ℤ → Prop) (Y : ℤ → Prop) (h h' : Handler F κ) :
    Prop where
  natCh4 : ∀ y, Y y → h'.natCh4.at' "CH4" y = h.natCh4.at' "CH4" y
  natN2o : ∀ y, Y y → h'.natN2o.at' "N2O" y = h.natN2o.at' "N2O" y
  cols : h'.concIn.cols = h.concIn.cols
  concIn : ∀ t y, K t y → h'.concIn.at' t y = h.concIn.at' t y
  emis : ∀ t y, E t y → h'.emis.at' t y = h.emis.at' t y
  pam : PamAgree h.pam h'.pam
  pert : ∀ y, Y y → (h'.pert.getD []).filter (fun r => r.year = y) =
    (h.pert.getD []).filter (fun r => r.year = y)
  y0 : h'.y0 = h.y0
  index : ∀ {y : ℤ} {i : ℕ}, h.index y = .ok i → h'.index y = .ok i
  concKeys : h'.concKeys = h.concKeys
  forcKeys : h'.forcKeys = h.forcKeys
  carbon : C h.carbon h'.carbon
  tot : ∀ y, Y y → totVanilla h'.prec y = totVanilla h.prec y
  conc : ∀ t y, Y y → h'.conc t y = h.conc t y
  forc : ∀ t y i, Y y → h.index y = .ok i → h'.forc t i = h.forc t i
  gas : ∀ t, (h'.gas.get? t).map (canon t) = (h.gas.get? t).map (canon t)

/-- The years a run looks at: the years up to a limit, and the reference years of the ozone and OH
formulas. -/
structure Scope (pam : Dict (PyVal F)) (E K : String → ℤ → Prop) (Y : ℤ → Prop) : Prop where
  down : ∀ a b, a ≤ b → Y b → Y a
  emis : ∀ t y, Y y → E t y
  concIn : ∀ t y, Y y → K t y
  emis2000 : ∀ t ∈ ["NOx", "CO", "NMVOC"], E t 2000
  emisRef : ∀ r, pamI pam "ref_yr" = .ok r → (∀ t ∈ ["NOx", "CO", "NMVOC"], E t r) ∧ K "CH4" r

variable {C : κ → κ → Prop} {E K : String → ℤ → Prop} {Y : ℤ → Prop} {h h' : Handler F κ}

theorem index_le {h : Handler F κ} {y : ℤ} {i : ℕ} (e : h.index y = .ok i) {y0 : ℤ}
    (e0 : h.y0 = .ok y0) : y0 ≤ y ∧ i = (y - y0).toNat := by
  unfold Handler.index at e
  rw [e0, bind_ok] at e
  split at e
  · cases e
  · split at e
    · cases e
    · rw [Except.ok.injEq] at e
      exact ⟨by omega, e.symm⟩

/-- The two rows of a gas. -/
theorem Agree.gas_cases (a : Agree C E K Y h h') (t : String) :
    (h.gas.get? t = none ∧ h'.gas.get? t = none) ∨
    ∃ g g', h.gas.get? t = some g ∧ h'.gas.get? t = some g' ∧ g' = { g with natEm := g'.natEm } ∧
      (t ≠ "CH4" → t ≠ "N2O" → g' = g) := by
  have e := a.gas t
  cases hg : h.gas.get? t with
  | none =>
    rw [hg] at e
    cases hg' : h'.gas.get? t with
    | none => exact Or.inl ⟨rfl, rfl⟩
    | some g' => rw [hg'] at e; cases e
  | some g =>
    rw [hg] at e
    cases hg' : h'.gas.get? t with
    | none => rw [hg'] at e; cases e
    | some g' =>
      rw [hg'] at e
      simp only [Option.map_some, Option.some.injEq] at e
      refine Or.inr ⟨g, g', rfl, rfl, ?_, ?_⟩
      · unfold canon at e
        split at e
        · cases g; cases g'
          simp only [Gas.mk.injEq] at e ⊢
          simp [e]
        · rw [e]
      · intro h1 h2
        unfold canon at e
        rwa [if_neg (by simp [h1, h2]), if_neg (by simp [h1, h2])] at e

theorem Agree.concAt (a : Agree C E K Y h h') {t : String} {y : ℤ} (hy : Y y) :
    h'.concAt t y = h.concAt t y := by
  unfold Handler.concAt; rw [a.concKeys, a.conc t y hy]

theorem Agree.concLocal (a : Agree C E K Y h h') (s : Scope h.pam E K Y) {t : String} {y : ℤ}
    (hy : Y y) : concLocal h' t y = concLocal h t y := by
  unfold Handler.concLocal
  rw [a.y0, a.concAt (s.down (y - 1) y (by omega) hy), a.concIn t y (s.concIn t y hy)]

theorem Agree.dlnOh (a : Agree C E K Y h h') (s : Scope h.pam E K Y) {y : ℤ} (hy : Y y) (c : F) :
    dlnOh h' c y = dlnOh h c y := by
  unfold Handler.dlnOh
  rw [a.emis "NOx" y (s.emis _ _ hy), a.emis "CO" y (s.emis _ _ hy), a.emis "NMVOC" y (s.emis _ _ hy),
    a.emis "NOx" 2000 (s.emis2000 _ (by simp)), a.emis "CO" 2000 (s.emis2000 _ (by simp)),
    a.emis "NMVOC" 2000 (s.emis2000 _ (by simp))]

theorem Agree.lifetimeMode (a : Agree C E K Y h h') (s : Scope h.pam E K Y) {y : ℤ} (hy : Y y) (q c : F) :
    lifetimeMode h' q c y = lifetimeMode h q c y := by
  unfold Handler.lifetimeMode
  rw [a.pam.getE (by decide), a.dlnOh s hy]

theorem Agree.methaneLifetime (a : Agree C E K Y h h') (s : Scope h.pam E K Y) {y : ℤ} (hy : Y y)
    (q c : F) : methaneLifetime h' q c y = methaneLifetime h q c y := by
  unfold Handler.methaneLifetime Handler.gasAt Dict.getE
  rw [a.lifetimeMode s hy]
  rcases a.gas_cases "CH4" with ⟨e1, e2⟩ | ⟨g, g', e1, e2, e3, -⟩
  · rw [e1, e2]
  · rw [e1, e2, e3]; rfl

theorem Agree.decayRate (a : Agree C E K Y h h') (s : Scope h.pam E K Y) {y : ℤ} (hy : Y y)
    (t : String) (c : F) : decayRate h' t c y = decayRate h t c y := by
  unfold Handler.decayRate
  simp only [a.methaneLifetime s hy]
  unfold Handler.gasAt Dict.getE
  rcases a.gas_cases t with ⟨e1, e2⟩ | ⟨g, g', e1, e2, e3, -⟩
  · rw [e1, e2]
  · rw [e1, e2, e3]; rfl

theorem Agree.co2Emissions (a : Agree C E K Y h h') (s : Scope h.pam E K Y) {y : ℤ} (hy : Y y) :
    co2Emissions h' y = co2Emissions h y := by
  unfold Handler.co2Emissions Handler.gasAt Dict.getE
  rw [a.emis "CO2_FF" y (s.emis _ _ hy), a.emis "CO2_AFOLU" y (s.emis _ _ hy)]
  rcases a.gas_cases "CO2" with ⟨e1, e2⟩ | ⟨g, g', e1, e2, -, e3⟩
  · rw [e1, e2]
  · rw [e1, e2, e3 (by decide) (by decide)]

theorem canon_same {t : String} {g : Gas F} {e : F} (h : t ≠ "CH4" → t ≠ "N2O" → e = g.natEm) :
    canon t { g with natEm := e } = canon t g := by
  unfold canon
  by_cases ht : t = "CH4" ∨ t = "N2O"
  · rw [if_pos ht, if_pos ht]
  · rw [if_neg ht, if_neg ht, h (fun x => ht (Or.inl x)) (fun x => ht (Or.inr x))]

theorem Same.gas_canon {h h1 : Handler F κ} (s : Same h h1) (t : String) :
    (h1.gas.get? t).map (canon t) = (h.gas.get? t).map (canon t) := by
  cases hg : h.gas.get? t with
  | none => rw [s.gasNone t hg]
  | some g =>
    obtain ⟨e, he, hn⟩ := s.gasSome t g hg
    rw [he]
    simp only [Option.map_some, Option.some.injEq]
    exact canon_same hn

/-- Agreement after a change of concentrations, forcings, carbon state and natural emissions. -/
theorem Agree.of_same {C' : κ → κ → Prop} (a : Agree C E K Y h h') {h1 h1' : Handler F κ} (s : Same h h1) (s' : Same h' h1')
    (hf : h1.forc = h.forc) (hf' : h1'.forc = h'.forc) (hc : C' h1.carbon h1'.carbon)
    (hconc : ∀ t y, Y y → h1'.conc t y = h1.conc t y) : Agree C' E K Y h1 h1' where
  natCh4 := by rw [s.natCh4, s'.natCh4]; exact a.natCh4
  natN2o := by rw [s.natN2o, s'.natN2o]; exact a.natN2o
  cols := by rw [s.concIn, s'.concIn]; exact a.cols
  concIn := by rw [s.concIn, s'.concIn]; exact a.concIn
  emis := by rw [s.emis, s'.emis]; exact a.emis
  pam := by rw [s.pam, s'.pam]; exact a.pam
  pert := by rw [s.pert, s'.pert]; exact a.pert
  y0 := by rw [s.y0, s'.y0]; exact a.y0
  index := by intro y i; rw [s.index, s'.index]; exact a.index
  concKeys := by rw [s.concKeys, s'.concKeys]; exact a.concKeys
  forcKeys := by rw [s.forcKeys, s'.forcKeys]; exact a.forcKeys
  carbon := hc
  tot := by rw [s.prec, s'.prec]; exact a.tot
  conc := hconc
  forc := by
    intro t y i hy hi
    rw [s.index] at hi
    rw [hf, hf', a.forc t y i hy hi]
  gas := by
    intro t
    rw [s.gas_canon, s'.gas_canon, a.gas]

/-! ## One year of concentrations -/

/-- A relation kept by a monadic fold when both sides succeed. -/
theorem foldlM_rel {ε α β β' : Type} {f : β → α → Except ε β} {f' : β' → α → Except ε β'}
    (R : β → β' → Prop)
    (hstep : ∀ b b' x c c', R b b' → f b x = .ok c → f' b' x = .ok c' → R c c') :
    ∀ (l : List α) (b : β) (b' : β') (c : β) (c' : β'), R b b' → l.foldlM f b = .ok c →
      l.foldlM f' b' = .ok c' → R c c'
  | [], b, b', c, c', hr, h, h' => by
    rw [foldlM_nil_ok] at h h'
    rw [h, h']; exact hr
  | x :: l, b, b', c, c', hr, h, h' => by
    obtain ⟨m, h1, h2⟩ := foldlM_cons_ok.1 h
    obtain ⟨m', h1', h2'⟩ := foldlM_cons_ok.1 h'
    exact foldlM_rel R hstep l m m' c c' (hstep _ _ _ _ _ hr h1 h1') h2 h2'

theorem Agree.concCell (a : Agree C E K Y h h') {t : String} {y : ℤ} (hk : K t y)
    (hc : t ∈ h.concIn.cols) (hi : y ∈ h.concIn.idx) : h'.concIn.cell t y = h.concIn.cell t y := by
  have h1 : h.concIn.at' t y = .ok (h.concIn.cell t y) := frame_at'_eq_ok.2 ⟨hc, hi, rfl⟩
  have h2 := a.concIn t y hk
  rw [h1] at h2
  exact (frame_at'_eq_ok.1 h2).2.2

theorem Agree.fill (a : Agree C E K Y h h') (s : Scope h.pam E K Y) {y : ℤ} (hy : Y y) {avoid : List String}
    {h1 h1' : Handler F κ} (e : fillOneRow h y avoid = .ok h1) (e' : fillOneRow h' y avoid = .ok h1') :
    Agree C E K Y h1 h1' := by
  obtain ⟨s1, f1, c1, -, k1, i1⟩ := fillOneRow_spec e
  obtain ⟨s2, f2, c2, -, k2, -⟩ := fillOneRow_spec e'
  refine a.of_same s1 s2 f1 f2 (by rw [c1, c2]; exact a.carbon) ?_
  intro t z hz
  rw [k1, k2, a.concKeys, a.cols, a.conc t z hz]
  split
  · rename_i hcond
    obtain ⟨rfl, ht, hta⟩ := hcond
    by_cases hcol : t ∈ h.concIn.cols
    · rw [if_pos hcol, if_pos hcol, a.concCell (s.concIn t z hz) hcol (i1 t ht hta hcol)]
    · rw [if_neg hcol, if_neg hcol]
  · rfl

/-- Every successful step of the two carbon cycles in this year gives the same concentration and
related states. -/
def StepTo (ops : CarbonOps F κ) (C' : κ → κ → Prop) (y : ℤ) (fb : Option (Dict F)) (k k' : κ) : Prop :=
  ∀ em r r', ops.step k y em fb = .ok r → ops.step k' y em fb = .ok r' → r'.1 = r.1 ∧ C' r.2 r'.2

theorem stepTo_eq {ops : CarbonOps F κ} {y : ℤ} {fb : Option (Dict F)} (k : κ) : StepTo ops Eq y fb k k := by
  intro em r r' h h'
  rw [h, Except.ok.injEq] at h'
  subst h'
  exact ⟨rfl, rfl⟩

theorem Agree.co2Step {C' : κ → κ → Prop} (a : Agree C E K Y h h') (s : Scope h.pam E K Y) {y : ℤ} (hy : Y y)
    {ops : CarbonOps F κ} {fb : Option (Dict F)} (hC : StepTo ops C' y fb h.carbon h'.carbon)
    {h1 h1' : Handler F κ}
    (e : co2Step ops y fb h = .ok h1) (e' : co2Step ops y fb h' = .ok h1') : Agree C' E K Y h1 h1' := by
  obtain ⟨s1, f1, -, em, r, b1, b2, b3, b4⟩ := co2Step_spec e
  obtain ⟨s2, f2, -, em', r', d1, d2, d3, d4⟩ := co2Step_spec e'
  rw [a.co2Emissions s hy, b1, Except.ok.injEq] at d1
  subst d1
  obtain ⟨q1, q2⟩ := hC _ _ _ b2 d2
  refine a.of_same s1 s2 f1 f2 (by rw [b3, d3]; exact q2) ?_
  intro t z hz
  rw [b4, d4, a.conc t z hz, q1]

theorem Agree.natOf (a : Agree C E K Y h h') {y : ℤ} (hy : Y y) {t : String} {g g' : Gas F}
    (hg : t ≠ "CH4" → t ≠ "N2O" → g' = g)
    {h1 h1' : Handler F κ} (e : setNatEm h t y = .ok h1) (e' : setNatEm h' t y = .ok h1') :
    natOf h' t g' y = natOf h t g y := by
  unfold Handler.natOf
  unfold setNatEm at e e'
  by_cases h4 : t = "CH4"
  · rw [if_pos h4] at e e'
    rw [if_pos h4, if_pos h4]
    rw [bind_eq_ok] at e e'
    obtain ⟨v, hv, -⟩ := e
    obtain ⟨v', hv', -⟩ := e'
    rw [a.natCh4 y hy, hv, Except.ok.injEq] at hv'
    have := a.natCh4 y hy
    rw [hv] at this
    rw [(frame_at'_eq_ok.1 this).2.2, (frame_at'_eq_ok.1 hv).2.2]
  · rw [if_neg h4] at e e'
    rw [if_neg h4, if_neg h4]
    by_cases hn : t = "N2O"
    · rw [if_pos hn] at e e'
      rw [if_pos hn, if_pos hn]
      rw [bind_eq_ok] at e e'
      obtain ⟨v, hv, -⟩ := e
      have := a.natN2o y hy
      rw [hv] at this
      rw [(frame_at'_eq_ok.1 this).2.2, (frame_at'_eq_ok.1 hv).2.2]
    · rw [if_neg hn, if_neg hn, hg h4 hn]

theorem Agree.otherStep (a : Agree C E K Y h h') (s : Scope h.pam E K Y) {y : ℤ} (hy : Y y) {t : String}
    {h1 h1' : Handler F κ} (e : otherStep y h t = .ok h1) (e' : otherStep y h' t = .ok h1') :
    Agree C E K Y h1 h1' := by
  obtain ⟨s1, f1, c1, -, cl, q, em, g, b1, b2, b3, b4, b5⟩ := otherStep_spec e
  obtain ⟨s2, f2, c2, -, cl', q', em', g', d1, d2, d3, d4, d5⟩ := otherStep_spec e'
  rw [a.concLocal s hy, b2, Except.ok.injEq] at d2
  subst d2
  rw [a.decayRate s hy, b3, Except.ok.injEq] at d3
  subst d3
  rw [a.emis t y (s.emis t y hy), b4, Except.ok.injEq] at d4
  subst d4
  have hnat : Handler.natOf h' t g' y = Handler.natOf h t g y := by
    unfold Handler.otherStep at e e'
    simp only [bind_eq_ok] at e e'
    obtain ⟨_, -, m, hm, -⟩ := e
    obtain ⟨_, -, m', hm', -⟩ := e'
    refine a.natOf hy ?_ hm hm'
    intro x1 x2
    rcases a.gas_cases t with ⟨e1, e2⟩ | ⟨p, p', e1, e2, -, e3⟩
    · rw [b1] at e1; cases e1
    · rw [b1] at e1; rw [d1] at e2
      simp only [Option.some.injEq] at e1 e2
      rw [e1, e2]; exact e3 x1 x2
  have hbeta : g'.beta = g.beta := by
    rcases a.gas_cases t with ⟨e1, e2⟩ | ⟨p, p', e1, e2, e3, -⟩
    · rw [b1] at e1; cases e1
    · rw [b1] at e1; rw [d1] at e2
      simp only [Option.some.injEq] at e1 e2
      rw [e1, e2, e3]
  refine a.of_same s1 s2 f1 f2 (by rw [c1, c2]; exact a.carbon) ?_
  intro u z hz
  rw [b5, d5, a.conc u z hz, hnat, hbeta]

/-- The concentration units of the two handlers. -/
theorem Agree.unit (a : Agree C E K Y h h') {t : String} {g g' : Gas F} (hg : h.gas.get? t = some g)
    (hg' : h'.gas.get? t = some g') : g'.concUnit = g.concUnit := by
  rcases a.gas_cases t with ⟨e1, e2⟩ | ⟨p, p', e1, e2, e3, -⟩
  · rw [hg] at e1; cases e1
  · rw [hg] at e1; rw [hg'] at e2
    simp only [Option.some.injEq] at e1 e2
    rw [e1, e2, e3]

theorem Agree.tracerStep (a : Agree C E K Y h h') (s : Scope h.pam E K Y) {y : ℤ} (hy : Y y)
    {ops : CarbonOps F κ} {fb : Option (Dict F)} {t : String} (ht : t ≠ "CO2") {h1 h1' : Handler F κ}
    (e : tracerStep ops y fb h t = .ok h1) (e' : tracerStep ops y fb h' t = .ok h1') :
    Agree C E K Y h1 h1' := by
  obtain ⟨g, hg, hc⟩ := tracerStep_spec e
  obtain ⟨g', hg', hc'⟩ := tracerStep_spec e'
  rw [a.unit hg hg'] at hc'
  rcases hc with ⟨b1, rfl⟩ | ⟨b1, b2, b3⟩ | ⟨b1, b2, b3⟩ <;>
    rcases hc' with ⟨d1, rfl⟩ | ⟨d1, d2, d3⟩ | ⟨d1, d2, d3⟩
  · exact a
  · exact absurd b1 d1
  · exact absurd b1 d1
  · exact absurd d1 b1
  · exact absurd b2 ht
  · exact absurd b2 d2
  · exact absurd d1 b1
  · exact absurd d2 b2
  · exact a.otherStep s hy b3 d3

/-- The loop over tracers other than CO2. -/
theorem Agree.loop (a : Agree C E K Y h h') (s : Scope h.pam E K Y) {y : ℤ} (hy : Y y)
    {ops : CarbonOps F κ} {fb : Option (Dict F)} : ∀ (ks : List String) {g g' h1 h1' : Handler F κ},
    "CO2" ∉ ks → Agree C E K Y g g' → Same h g →
    ks.foldlM (Handler.tracerStep ops y fb) g = .ok h1 →
    ks.foldlM (Handler.tracerStep ops y fb) g' = .ok h1' → Agree C E K Y h1 h1' ∧ Same h h1
  | [], g, g', h1, h1', _, ag, sg, e, e' => by
    rw [foldlM_nil_ok] at e e'
    subst e e'
    exact ⟨ag, sg⟩
  | t :: ks, g, g', h1, h1', hn, ag, sg, e, e' => by
    rw [List.mem_cons, not_or] at hn
    obtain ⟨m, e1, e2⟩ := foldlM_cons_ok.1 e
    obtain ⟨m', e1', e2'⟩ := foldlM_cons_ok.1 e'
    have sm := (tracerStep_frame e1).1
    exact Agree.loop a s hy ks hn.2 (ag.tracerStep (sg.pam ▸ s) hy (fun x => hn.1 x.symm) e1 e1')
      (sg.trans sm) e2 e2'

/-- The run uses the carbon cycle. -/
def Steps (h : Handler F κ) : Prop := pamB h.pam "conc_run" = .ok false ∧ "CO2" ∈ h.concKeys

theorem Same.steps_iff {h h' : Handler F κ} (s : Same h h') : Steps h' ↔ Steps h := by
  unfold Steps
  rw [s.pam, s.concKeys]

/-- CO2 is kept with concentrations only if it has a concentration unit. -/
def Co2Unit (h : Handler F κ) : Prop :=
  "CO2" ∈ h.concKeys → ∀ g, h.gas.get? "CO2" = some g → g.concUnit ≠ "-"

theorem Same.co2Unit {h h' : Handler F κ} (s : Same h h') (hu : Co2Unit h) : Co2Unit h' := by
  intro hc g hg
  rw [s.concKeys] at hc
  cases h0 : Dict.get? h.gas "CO2" with
  | none => rw [s.gasNone _ h0] at hg; cases hg
  | some g0 =>
    obtain ⟨e, he, -⟩ := s.gasSome _ _ h0
    rw [he, Option.some.injEq] at hg
    subst hg
    have := hu hc _ h0
    exact this

theorem Agree.zeros (a : Agree C E K Y h h') (y : ℤ) :
    Agree C E K Y (addRowOfZeros h y) (addRowOfZeros h' y) := by
  refine a.of_same (same_addRowOfZeros h y) (same_addRowOfZeros h' y) rfl rfl a.carbon ?_
  intro t z hz
  simp only [addRowOfZeros]
  rw [a.concKeys, a.conc t z hz]

theorem Agree.emi2conc {C' : κ → κ → Prop} (a : Agree C E K Y h h') (s : Scope h.pam E K Y) {y : ℤ}
    (hy : Y y) (hnd : h.concKeys.Nodup) (hu : Co2Unit h) {ops : CarbonOps F κ} {fb : Option (Dict F)}
    (hC : Steps h → StepTo ops C' y fb h.carbon h'.carbon) (hno : ¬ Steps h → C' h.carbon h'.carbon)
    {h1 h1' : Handler F κ}
    (e : emi2conc ops h y fb = .ok h1) (e' : emi2conc ops h' y fb = .ok h1') :
    Agree C' E K Y h1 h1' ∧ Same h h1 := by
  have weak : ∀ (w : C' h.carbon h'.carbon), Agree C' E K Y h h' := fun w =>
    a.of_same (Same.refl _) (Same.refl _) rfl rfl w a.conc
  obtain ⟨r, hr, hc⟩ := emi2conc_cases e
  obtain ⟨r', hr', hc'⟩ := emi2conc_cases e'
  rw [a.pam.pamB (by decide), hr, Except.ok.injEq] at hr'
  subst hr'
  rcases hc with ⟨b1, b2⟩ | ⟨b1, es, b2, b3⟩ <;> rcases hc' with ⟨d1, d2⟩ | ⟨d1, es', d2, d3⟩
  · refine ⟨(weak (hno ?_)).fill s hy b2 d2, (fillOneRow_spec b2).1⟩
    rintro ⟨hx, -⟩
    rw [hr, b1] at hx
    cases hx
  · rw [b1] at d1; cases d1
  · rw [b1] at d1; cases d1
  · rw [a.pam.before, b2, Except.ok.injEq] at d2
    subst d2
    rcases b3 with ⟨l1, b3⟩ | ⟨l1, b3⟩ <;> rcases d3 with ⟨l2, d3⟩ | ⟨l2, d3⟩
    · refine ⟨?_, (beforeEmstart_spec b3).2.1⟩
      have hst : Steps h := ⟨by rw [hr, b1], (beforeEmstart_spec b3).1⟩
      unfold beforeEmstart at b3 d3
      rw [bind_eq_ok] at b3 d3
      obtain ⟨m, m1, m2⟩ := b3
      obtain ⟨m', m1', m2'⟩ := d3
      have am := a.co2Step s hy (hC hst) m1 m1'
      have hpam : m.pam = h.pam := (co2Step_spec m1).1.pam
      split at m2
      · split at m2'
        · exact am.fill (hpam ▸ s) hy m2 m2'
        · cases m2'
      · cases m2
    · rw [l1] at l2; cases l2
    · rw [l1] at l2; cases l2
    · rw [a.concKeys] at d3
      by_cases hco : "CO2" ∈ h.concKeys
      · have hst : Steps h := ⟨by rw [hr, b1], hco⟩
        obtain ⟨l1, l2, hl⟩ := List.append_of_mem hco
        rw [hl] at hnd b3 d3
        have n1 : "CO2" ∉ l1 := by
          intro hx
          exact (List.nodup_append.1 hnd).2.2 _ hx _ (by simp) rfl
        have n2 : "CO2" ∉ l2 := (List.nodup_cons.1 (List.nodup_append.1 hnd).2.1).1
        rw [List.foldlM_append, bind_eq_ok] at b3 d3
        obtain ⟨m, m1, m2⟩ := b3
        obtain ⟨m', m1', m2'⟩ := d3
        obtain ⟨am, sm⟩ := a.loop s hy l1 n1 (a.zeros y) (same_addRowOfZeros h y) m1 m1'
        have cm : m.carbon = h.carbon :=
          (tracerLoop_spec l1 _ _ (List.nodup_append.1 hnd).1 m1).2.2.2.2 (Or.inl n1)
        have cm' : m'.carbon = h'.carbon :=
          (tracerLoop_spec l1 _ _ (List.nodup_append.1 hnd).1 m1').2.2.2.2 (Or.inl n1)
        obtain ⟨p, p1, p2⟩ := foldlM_cons_ok.1 m2
        obtain ⟨p', p1', p2'⟩ := foldlM_cons_ok.1 m2'
        have sp := sm.trans (tracerStep_frame p1).1
        have ap : Agree C' E K Y p p' := by
          obtain ⟨g, hg, hc⟩ := tracerStep_spec p1
          obtain ⟨g', hg', hc'⟩ := tracerStep_spec p1'
          rw [am.unit hg hg'] at hc'
          rcases hc with ⟨b1, rfl⟩ | ⟨b1, b2, b3⟩ | ⟨b1, b2, b3⟩ <;>
            rcases hc' with ⟨d1, rfl⟩ | ⟨d1, d2, d3⟩ | ⟨d1, d2, d3⟩
          · refine am.of_same (Same.refl _) (Same.refl _) rfl rfl ?_ am.conc
            rw [cm, cm']
            refine hno (fun _ => ?_)
            obtain ⟨g0, hg0, heq⟩ := sm.gas_of_some hg
            exact hu hco g0 hg0 (by rw [heq] at b1; exact b1)
          · exact absurd b1 d1
          · exact absurd b1 d1
          · exact absurd d1 b1
          · exact am.co2Step (sm.pam ▸ s) hy (by rw [cm, cm']; exact hC hst) b3 d3
          · exact absurd b2 d2
          · exact absurd d1 b1
          · exact absurd d2 b2
          · exact absurd rfl d2
        exact ap.loop (sp.pam ▸ s) hy l2 n2 ap (Same.refl _) p2 p2' |>.imp id (fun x => sp.trans x)
      · have w := weak (hno (fun st => hco st.2))
        exact w.loop s hy _ hco (w.zeros y) (same_addRowOfZeros h y) b3 d3

/-! ## One year of forcing -/

/-- Agreement of the values carried through the forcing loop. -/
structure AccAgree (Y : ℤ → Prop) (h : Handler F κ) (b b' : Acc F) : Prop where
  tot : b'.tot = b.tot
  nh : b'.nh = b.nh
  sh : b'.sh = b.sh
  aero : b'.aero = b.aero
  forc : ∀ t y i, Y y → h.index y = .ok i → b'.forc t i = b.forc t i
  conc : ∀ t y, Y y → b'.conc t y = b.conc t y

theorem setForc_agree {Y : ℤ → Prop} {h : Handler F κ} {f f' : String → ℕ → F}
    (hf : ∀ t y i, Y y → h.index y = .ok i → f' t i = f t i) (k : String) (j : ℕ) (v : F) :
    ∀ t y i, Y y → h.index y = .ok i → setForc f' k j v t i = setForc f k j v t i := by
  intro t y i hy hi
  unfold setForc
  rw [hf t y i hy hi]

theorem Agree.sarf (a : Agree C E K Y h h') {t : String} {g g' : Gas F} (hg : h.gasAt t = .ok g)
    (hg' : h'.gasAt t = .ok g') : g'.sarf = g.sarf ∧ g'.alpha = g.alpha := by
  rw [gasAt_eq_ok] at hg hg'
  rcases a.gas_cases t with ⟨e1, e2⟩ | ⟨p, p', e1, e2, e3, -⟩
  · rw [hg] at e1; cases e1
  · rw [hg] at e1; rw [hg'] at e2
    simp only [Option.some.injEq] at e1 e2
    rw [e1, e2, e3]
    exact ⟨rfl, rfl⟩

theorem Agree.threeMain (a : Agree C E K Y h h') (s : Scope h.pam E K Y) {y : ℤ} (hy : Y y)
    {b b' : Acc F} (e : threeMain h y = .ok b) (e' : threeMain h' y = .ok b') : AccAgree Y h b b' := by
  unfold Handler.threeMain at e e'
  simp only [bind_eq_ok] at e e'
  obtain ⟨y0, h0, n0, hn0, n, hn, c0, hc0, c, hc, m0, hm0, m, hm, gc, hgc, gn, hgn, gm, hgm, i, hi, -, -,
    -, -, -, -, e⟩ := e
  obtain ⟨y0', h0', n0', hn0', n', hn', c0', hc0', c', hc', m0', hm0', m', hm', gc', hgc', gn', hgn', gm',
    hgm', i', hi', -, -, -, -, -, -, e'⟩ := e'
  rw [a.y0, h0, Except.ok.injEq] at h0'
  subst h0'
  rw [a.index hi, Except.ok.injEq] at hi'
  subst hi'
  have hy0 : Y y0 := s.down _ _ (index_le hi h0).1 hy
  rw [a.concAt hy0, hn0, Except.ok.injEq] at hn0'
  rw [a.concAt hy, hn, Except.ok.injEq] at hn'
  rw [a.concAt hy0, hc0, Except.ok.injEq] at hc0'
  rw [a.concAt hy, hc, Except.ok.injEq] at hc'
  rw [a.concAt hy0, hm0, Except.ok.injEq] at hm0'
  rw [a.concAt hy, hm, Except.ok.injEq] at hm'
  subst hn0' hn' hc0' hc' hm0' hm'
  rw [pure_ok, Except.ok.injEq] at e e'
  subst e e'
  simp only [(a.sarf hgc hgc').1, (a.sarf hgn hgn').1, (a.sarf hgm hgm').1]
  exact ⟨rfl, rfl, rfl, rfl,
    setForc_agree (setForc_agree (setForc_agree a.forc _ _ _) _ _ _) _ _ _, a.conc⟩

theorem Agree.accConc (a : Agree C E K Y h h') {b b' : Acc F} (ab : AccAgree Y h b b') {t : String}
    {y : ℤ} (hy : Y y) : accConc h' b' t y = accConc h b t y := by
  unfold Handler.accConc Handler.concAt
  simp only [a.concKeys, ab.conc t y hy]

theorem Agree.tropO3Conc (a : Agree C E K Y h h') (s : Scope h.pam E K Y) {b b' : Acc F}
    (ab : AccAgree Y h b b') {y : ℤ} (hy : Y y) : tropO3Conc h' b' y = tropO3Conc h b y := by
  unfold Handler.tropO3Conc
  rw [a.pam.pamI (by decide)]
  cases hr : pamI h.pam "ref_yr" with
  | error e => rfl
  | ok r =>
    obtain ⟨s1, s2⟩ := s.emisRef r hr
    simp only [bind_ok]
    rw [a.accConc ab hy, a.concIn _ _ s2, a.emis "NOx" y (s.emis _ _ hy),
      a.emis "CO" y (s.emis _ _ hy), a.emis "NMVOC" y (s.emis _ _ hy), a.emis "NOx" r (s1 _ (by simp)),
      a.emis "CO" r (s1 _ (by simp)), a.emis "NMVOC" r (s1 _ (by simp))]

theorem Agree.tropO3Forcing (a : Agree C E K Y h h') (s : Scope h.pam E K Y) {b b' : Acc F}
    (ab : AccAgree Y h b b') {y : ℤ} (hy : Y y) {i : ℕ} (hi : h.index y = .ok i)
    {r r' : F × (String → ℤ → Option F)}
    (e : tropO3Forcing h b y = .ok r) (e' : tropO3Forcing h' b' y = .ok r') :
    r'.1 = r.1 ∧ ∀ t z, Y z → r'.2 t z = r.2 t z := by
  unfold Handler.tropO3Forcing at e e'
  simp only [bind_eq_ok] at e e'
  obtain ⟨y0, h0, v, hv, -, -, v0, hv0, q, hq, e⟩ := e
  obtain ⟨y0', h0', v', hv', -, -, v0', hv0', q', hq', e'⟩ := e'
  rw [a.y0, h0, Except.ok.injEq] at h0'
  subst h0'
  rw [a.tropO3Conc s ab hy, hv, Except.ok.injEq] at hv'
  subst hv'
  rw [a.pam.pamF (by decide), hq, Except.ok.injEq] at hq'
  subst hq'
  have hc : ∀ t z, Y z → (fun t z => if t = "TROP_O3" ∧ z = y then some v else b'.conc t z) t z =
      (fun t z => if t = "TROP_O3" ∧ z = y then some v else b.conc t z) t z := by
    intro t z hz
    simp only [ab.conc t z hz]
  have hy0 : Y y0 := s.down _ _ (index_le hi h0).1 hy
  have hacc := a.accConc (b := { b with conc := fun t z => if t = "TROP_O3" ∧ z = y then some v else b.conc t z })
    (b' := { b' with conc := fun t z => if t = "TROP_O3" ∧ z = y then some v else b'.conc t z })
    ⟨ab.tot, ab.nh, ab.sh, ab.aero, ab.forc, hc⟩ (t := "TROP_O3") hy0
  rw [hacc, hv0, Except.ok.injEq] at hv0'
  subst hv0'
  by_cases hz : isEq v0 30.0 = true
  · rw [if_pos hz, pure_ok, Except.ok.injEq] at e e'
    subst e e'
    exact ⟨rfl, hc⟩
  · rw [if_neg hz, pure_ok, Except.ok.injEq] at e e'
    subst e e'
    exact ⟨rfl, hc⟩

theorem Agree.aerosolForcing (a : Agree C E K Y h h') (s : Scope h.pam E K Y) {y : ℤ} (hy : Y y) {i : ℕ}
    (hi : h.index y = .ok i) (t : String) : aerosolForcing h' y t = aerosolForcing h y t := by
  unfold Handler.aerosolForcing
  rw [a.y0]
  cases h0 : h.y0 with
  | error e => rfl
  | ok y0 =>
    have hp : ∀ sp, refEmissionSpecies.get? t = some sp → pamF h'.pam sp.2 = pamF h.pam sp.2 := by
      intro sp hsp
      have hmem : sp ∈ refEmissionSpecies.map Prod.snd :=
        List.mem_map.2 ⟨_, Dict.mem_of_get? hsp, rfl⟩
      have hall : ∀ q ∈ refEmissionSpecies.map Prod.snd, q.2 ∉ frozenNums := by decide +kernel
      exact a.pam.pamF (hall sp hmem)
    have hy0 : Y y0 := s.down _ _ (index_le hi h0).1 hy
    simp only [bind_ok]
    unfold Handler.gasAt Dict.getE
    have he : ∀ t, h'.emis.at' t y = h.emis.at' t y := fun t => a.emis t y (s.emis _ _ hy)
    have he0 : ∀ t, h'.emis.at' t y0 = h.emis.at' t y0 := fun t => a.emis t y0 (s.emis _ _ hy0)
    simp only [he, he0]
    cases hsp : refEmissionSpecies.get? t with
    | none =>
      rcases a.gas_cases t with ⟨e1, e2⟩ | ⟨g, g', e1, e2, e3, -⟩
      · rw [e1, e2]
      · rw [e1, e2, e3]; rfl
    | some sp =>
      simp only [hp sp hsp]
      rcases a.gas_cases t with ⟨e1, e2⟩ | ⟨g, g', e1, e2, e3, -⟩
      · rw [e1, e2]
      · rw [e1, e2, e3]; rfl

theorem Agree.hasAlpha (a : Agree C E K Y h h') (t : String) : hasAlpha h' t = hasAlpha h t := by
  unfold Handler.hasAlpha
  rcases a.gas_cases t with ⟨e1, e2⟩ | ⟨g, g', e1, e2, e3, -⟩
  · rw [e1, e2]
  · rw [e1, e2, e3]

theorem Agree.tracerForcing (a : Agree C E K Y h h') (s : Scope h.pam E K Y) {b b' : Acc F}
    (ab : AccAgree Y h b b') {y : ℤ} (hy : Y y) {i : ℕ} (hi : h.index y = .ok i) {luc : F} {t : String}
    {r r' : F × (String → ℤ → Option F)}
    (e : tracerForcing h y luc b i t = .ok r) (e' : tracerForcing h' y luc b' i t = .ok r') :
    r'.1 = r.1 ∧ ∀ t z, Y z → r'.2 t z = r.2 t z := by
  unfold Handler.tracerForcing at e e'
  rw [a.hasAlpha] at e'
  by_cases c1 : t = "LANDUSE"
  · rw [if_pos c1, Except.ok.injEq] at e e'
    subst e e'
    exact ⟨rfl, ab.conc⟩
  rw [if_neg c1] at e e'
  by_cases c2 : isAerosol t = true
  · rw [if_pos c2, bind_eq_ok] at e e'
    obtain ⟨q, hq, e⟩ := e
    obtain ⟨q', hq', e'⟩ := e'
    rw [a.aerosolForcing s hy hi, hq, Except.ok.injEq] at hq'
    subst hq'
    rw [pure_ok, Except.ok.injEq] at e e'
    subst e e'
    exact ⟨rfl, ab.conc⟩
  rw [if_neg c2] at e e'
  by_cases c3 : Handler.hasAlpha h t = true
  · rw [if_pos c3] at e e'
    simp only [bind_eq_ok] at e e'
    obtain ⟨y0, h0, c, hc, c0, hc0, g, hg, e⟩ := e
    obtain ⟨y0', h0', c', hc', c0', hc0', g', hg', e'⟩ := e'
    rw [a.y0, h0, Except.ok.injEq] at h0'
    subst h0'
    have hy0 : Y y0 := s.down _ _ (index_le hi h0).1 hy
    rw [a.accConc ab hy, hc, Except.ok.injEq] at hc'
    rw [a.accConc ab hy0, hc0, Except.ok.injEq] at hc0'
    subst hc' hc0'
    rw [pure_ok, Except.ok.injEq] at e e'
    subst e e'
    simp only [(a.sarf hg hg').1, (a.sarf hg hg').2]
    exact ⟨trivial, ab.conc⟩
  rw [if_neg c3] at e e'
  by_cases c4 : t = "TROP_O3"
  · rw [if_pos c4] at e e'
    simp only [bind_eq_ok] at e e'
    obtain ⟨q, hq, g, hg, e⟩ := e
    obtain ⟨q', hq', g', hg', e'⟩ := e'
    rw [pure_ok, Except.ok.injEq] at e e'
    subst e e'
    obtain ⟨x1, x2⟩ := a.tropO3Forcing s ab hy hi hq hq'
    simp only [(a.sarf hg hg').1, x1]
    exact ⟨trivial, x2⟩
  rw [if_neg c4] at e e'
  by_cases c5 : t = "STRAT_H2O"
  · rw [if_pos c5] at e e'
    simp only [bind_eq_ok] at e e'
    obtain ⟨q, hq, g, hg, e⟩ := e
    obtain ⟨q', hq', g', hg', e'⟩ := e'
    rw [a.pam.pamF (by decide), hq, Except.ok.injEq] at hq'
    subst hq'
    rw [pure_ok, Except.ok.injEq] at e e'
    subst e e'
    simp only [(a.sarf hg hg').1, ab.forc "CH4" y i hy hi]
    exact ⟨trivial, ab.conc⟩
  rw [if_neg c5, Except.ok.injEq] at e e'
  subst e e'
  exact ⟨rfl, ab.conc⟩

theorem Agree.forcStep (a : Agree C E K Y h h') (s : Scope h.pam E K Y) {b b' : Acc F}
    (ab : AccAgree Y h b b') {y : ℤ} (hy : Y y) {i : ℕ} (hi : h.index y = .ok i) {luc : F} {t : String}
    {c c' : Acc F} (e : forcStep h y luc i b t = .ok c) (e' : forcStep h' y luc i b' t = .ok c') :
    AccAgree Y h c c' := by
  unfold Handler.forcStep at e e'
  split at e
  · rename_i ht
    rw [if_pos ht, Except.ok.injEq] at e'
    rw [Except.ok.injEq] at e
    subst e e'
    exact ab
  · rename_i ht
    rw [if_neg ht, bind_eq_ok] at e'
    rw [bind_eq_ok] at e
    obtain ⟨r, hr, e⟩ := e
    obtain ⟨r', hr', e'⟩ := e'
    obtain ⟨x1, x2⟩ := a.tracerForcing s ab hy hi hr hr'
    rw [pure_ok, Except.ok.injEq] at e e'
    subst e e'
    simp only [x1, ab.nh, ab.sh, ab.tot, ab.aero]
    exact ⟨rfl, rfl, rfl, rfl, setForc_agree ab.forc _ _ _, x2⟩

omit [Neg F] [Div F] [LT F] [DecidableLT F] [MathFn F] in
theorem addForcingPert_eq {rows rows' : List (PertRow F)} {yr : ℤ}
    (hr : rows'.filter (fun r => r.year = yr) = rows.filter (fun r => r.year = yr))
    (keys : List String) (y0 : ℤ) (s : ForcAcc F) :
    addForcingPert rows' keys y0 yr s = addForcingPert rows keys y0 yr s := by
  unfold addForcingPert; rw [hr]

theorem addPert_getD (h : Handler F κ) (y0 yr : ℤ) (b : Acc F) :
    addPert h y0 yr b =
      let s := addForcingPert (h.pert.getD []) h.forcKeys y0 yr ⟨b.tot, b.nh, b.sh, b.forc⟩
      { b with tot := s.tot, nh := s.nh, sh := s.sh, forc := s.forc } := by
  unfold addPert
  cases h.pert <;> rfl

omit [Neg F] [Div F] [LT F] [DecidableLT F] [MathFn F] in
/-- Perturbing arrays that agree where it matters. -/
theorem addForcingPert_agree {rows : List (PertRow F)} {keys : List String} {y0 yr : ℤ}
    {s s' : ForcAcc F} (P : ℕ → Prop) (h1 : s'.tot = s.tot) (h2 : s'.nh = s.nh) (h3 : s'.sh = s.sh)
    (h4 : ∀ t i, P i → s'.forc t i = s.forc t i) (hi : P (yr - y0).toNat) :
    (addForcingPert rows keys y0 yr s').tot = (addForcingPert rows keys y0 yr s).tot ∧
    (addForcingPert rows keys y0 yr s').nh = (addForcingPert rows keys y0 yr s).nh ∧
    (addForcingPert rows keys y0 yr s').sh = (addForcingPert rows keys y0 yr s).sh ∧
    ∀ t i, P i → (addForcingPert rows keys y0 yr s').forc t i =
      (addForcingPert rows keys y0 yr s).forc t i := by
  unfold addForcingPert
  generalize rows.filter (fun r => decide (r.year = yr)) = rs
  induction rs generalizing s s' with
  | nil => exact ⟨h1, h2, h3, h4⟩
  | cons r rs ih =>
    rw [List.foldl_cons, List.foldl_cons]
    unfold addForcingPertStep
    by_cases hk : r.component ∉ keys
    · rw [if_pos hk, if_pos hk]
      exact ih h1 h2 h3 h4
    · rw [if_neg hk, if_neg hk]
      apply ih
      · simp only [h1]
      · simp only [h2, h3]
      · simp only [h2, h3]
      · intro t i hp
        simp only [setForc]
        rw [h4 t i hp, h4 _ _ hi]

theorem Agree.addPert (a : Agree C E K Y h h') {b b' : Acc F} (ab : AccAgree Y h b b') {y y0 : ℤ}
    (hy : Y y) {i : ℕ} (hi : h.index y = .ok i) (h0 : h.y0 = .ok y0) :
    AccAgree Y h (addPert h y0 y b) (addPert h' y0 y b') := by
  rw [addPert_getD, addPert_getD]
  simp only [a.forcKeys]
  rw [addForcingPert_eq (a.pert y hy)]
  obtain ⟨p1, p2, p3, p4⟩ := addForcingPert_agree (rows := h.pert.getD []) (keys := h.forcKeys)
    (y0 := y0) (yr := y) (s := ⟨b.tot, b.nh, b.sh, b.forc⟩) (s' := ⟨b'.tot, b'.nh, b'.sh, b'.forc⟩)
    (fun i => ∃ z, Y z ∧ h.index z = .ok i) ab.tot ab.nh ab.sh
    (fun t i ⟨z, hz, hzi⟩ => ab.forc t z i hz hzi) ⟨y, hy, by rw [hi, (index_le hi h0).2]⟩
  exact ⟨p1, p2, p3, ab.aero, fun t z i hz hzi => p4 t i ⟨z, hz, hzi⟩, ab.conc⟩

theorem Agree.applyJustOne (a : Agree C E K Y h h') {b b' : Acc F} (ab : AccAgree Y h b b') {y : ℤ}
    (hy : Y y) {i : ℕ} (hi : h.index y = .ok i) {c c' : Acc F} (e : applyJustOne h i b = .ok c)
    (e' : applyJustOne h' i b' = .ok c') : AccAgree Y h c c' := by
  unfold Handler.applyJustOne at e e'
  rw [a.pam.same _ (by decide), a.forcKeys] at e'
  split at e
  · rename_i hn
    rw [hn] at e'
    simp only [Except.ok.injEq] at e e'
    subst e e'
    exact ab
  · rename_i v hv
    rw [hv] at e'
    simp only [bind_eq_ok] at e e'
    obtain ⟨k, hk, e⟩ := e
    obtain ⟨k', hk', e'⟩ := e'
    rw [hk, Except.ok.injEq] at hk'
    subst hk'
    rw [pure_ok, Except.ok.injEq] at e e'
    subst e e'
    simp only [ab.forc k y i hy hi]
    exact ⟨rfl, rfl, rfl, ab.aero, ab.forc, ab.conc⟩

theorem Agree.conc2forc (a : Agree C E K Y h h') (s : Scope h.pam E K Y) {y : ℤ} (hy : Y y)
    {luc sun : F} {r r' : ForcResult F × Handler F κ}
    (e : conc2forc h y luc sun = .ok r) (e' : conc2forc h' y luc sun = .ok r') :
    r'.1 = r.1 ∧ Agree C E K Y r.2 r'.2 ∧ r.2.pam = h.pam ∧ r.2.years = h.years := by
  unfold Handler.conc2forc at e e'
  simp only [bind_eq_ok] at e e'
  obtain ⟨b, hb, y0, h0, i, hi, c, hc, d, hd, f, hf, e⟩ := e
  obtain ⟨b', hb', y0', h0', i', hi', c', hc', d', hd', f', hf', e'⟩ := e'
  rw [a.y0, h0, Except.ok.injEq] at h0'
  subst h0'
  rw [a.index hi, Except.ok.injEq] at hi'
  subst hi'
  rw [a.forcKeys] at hc'
  have a1 := a.threeMain s hy hb hb'
  have a2 := foldlM_rel (f := Handler.forcStep h y luc i) (f' := Handler.forcStep h' y luc i)
    (fun b b' => AccAgree Y h b b') (fun b b' x c c' ab hx hx' => a.forcStep s ab hy hi hx hx') _ _ _ _ _ a1 hc hc'
  have a3 : AccAgree Y h d d' := by
    unfold addVanilla at hd hd'
    rw [bind_eq_ok] at hd hd'
    obtain ⟨v, hv, hd⟩ := hd
    obtain ⟨v', hv', hd'⟩ := hd'
    rw [a.tot y hy, hv, Except.ok.injEq] at hv'
    subst hv'
    rw [pure_ok, Except.ok.injEq] at hd hd'
    subst hd hd'
    exact ⟨by simp only [a2.tot], by simp only [a2.nh], by simp only [a2.sh], a2.aero, a2.forc, a2.conc⟩
  have a4 := a.applyJustOne (a.addPert a3 hy hi h0) hy hi hf hf'
  rw [pure_ok, Except.ok.injEq] at e e'
  subst e e'
  have hforc : ∀ t, setForc f'.forc "Total_forcing" i f'.tot t i =
      setForc f.forc "Total_forcing" i f.tot t i := by
    intro t
    rw [a4.tot]
    exact setForc_agree a4.forc _ _ _ t y i hy hi
  refine ⟨?_, ?_, rfl, rfl⟩
  · simp only [finishForc, a4.tot, a4.nh, a4.sh, a4.aero, a.forcKeys]
    rw [a4.tot] at hforc
    simp only [hforc]
  · unfold finishForc
    simp only [a4.tot]
    exact ⟨a.natCh4, a.natN2o, a.cols, a.concIn, a.emis, a.pam, a.pert, a.y0, a.index, a.concKeys, a.forcKeys,
      a.carbon, a.tot, a4.conc, setForc_agree a4.forc _ _ _, a.gas⟩

end
end Verif.Model.Handler
