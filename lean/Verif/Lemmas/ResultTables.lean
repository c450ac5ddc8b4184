import Verif.Props.C06_run
import Verif.Props.C62
import Verif.Model.Results

/-! # The result tables of a run have a value in every cell -/

namespace Verif.Props
open Verif.Py Verif.Py.Dict Verif.Model Verif.Model.Handler Verif.Model.Driver Verif.Model.Results Verif.Spec

section
variable {F κ τ : Type} [Add F] [Sub F] [Mul F] [Div F] [Neg F] [OfScientific F] [LT F] [DecidableLT F]
  [MathFn F]

/-- After the concentrations of a year, every concentration of that year is there. -/
theorem emi2conc_filled {ops : CarbonOps F κ} {h h' : Handler F κ} {y : ℤ} {fb : Option (Dict F)}
    (e : emi2conc ops h y fb = .ok h') : ∀ t ∈ h'.concKeys, ∃ v, h'.conc t y = some v := by
  obtain ⟨run, _, ⟨_, e⟩ | ⟨_, es, _, ⟨_, e⟩ | ⟨_, e⟩⟩⟩ := emi2conc_cases e
  · obtain ⟨s, -, -, -, hv, -⟩ := fillOneRow_spec e
    intro t ht
    rw [s.concKeys] at ht
    rw [hv, if_pos ⟨rfl, ht, List.not_mem_nil⟩]
    exact ⟨_, rfl⟩
  · obtain ⟨-, s, -, -, ⟨em, q, -, -, -, hco2⟩, hv, -⟩ := beforeEmstart_spec e
    intro t ht
    rw [s.concKeys] at ht
    by_cases hz : t = "CO2"
    · rw [hz]; exact ⟨_, hco2⟩
    · rw [hv t y (Or.inl hz), if_pos ⟨rfl, ht⟩]
      exact ⟨_, rfl⟩
  · have key := foldlM_inv (fun b : Handler F κ => Same h b ∧ ∀ t ∈ h.concKeys, ∃ v, b.conc t y = some v)
      (by
        rintro b x b' ⟨s, f⟩ hx
        obtain ⟨s', -, -, -, c'⟩ := tracerStep_frame hx
        refine ⟨s.trans s', ?_⟩
        intro t ht
        by_cases hz : t = x
        · subst hz
          obtain ⟨g, -, ⟨-, rfl⟩ | ⟨-, rfl, e⟩ | ⟨-, -, e⟩⟩ := tracerStep_spec hx
          · exact f _ ht
          · obtain ⟨-, -, -, em, q, -, -, -, hv⟩ := co2Step_spec e
            rw [hv, if_pos ⟨rfl, rfl⟩]; exact ⟨_, rfl⟩
          · obtain ⟨-, -, -, -, cl, q, em, g', -, -, -, -, hv⟩ := otherStep_spec e
            rw [hv, if_pos ⟨rfl, rfl⟩]; exact ⟨_, rfl⟩
        · rw [c' t y (Or.inl hz)]
          exact f t ht)
      _ _ _ ⟨same_addRowOfZeros h y, fun t ht => by
        simp only [addRowOfZeros]
        rw [if_pos ⟨trivial, ht⟩]
        exact ⟨_, rfl⟩⟩ e
    intro t ht
    rw [key.1.concKeys] at ht
    exact key.2 t ht

theorem tracerForcing_filled {h : Handler F κ} {b : Acc F} {yr : ℤ} {i : ℕ} {luc : F} {t : String}
    {r : F × (String → ℤ → Option F)} (e : tracerForcing h yr luc b i t = .ok r) :
    ∀ t y, (∃ v, b.conc t y = some v) → ∃ v, r.2 t y = some v := by
  unfold tracerForcing at e
  by_cases c1 : t = "LANDUSE"
  · rw [if_pos c1, Except.ok.injEq] at e; subst e; exact fun _ _ h => h
  rw [if_neg c1] at e
  by_cases c2 : isAerosol t = true
  · rw [if_pos c2, bind_eq_ok] at e
    obtain ⟨q, -, e⟩ := e
    rw [pure_ok, Except.ok.injEq] at e; subst e; exact fun _ _ h => h
  rw [if_neg c2] at e
  by_cases c3 : hasAlpha h t = true
  · rw [if_pos c3] at e
    simp only [bind_eq_ok] at e
    obtain ⟨y0, -, c, -, c0, -, g, -, e⟩ := e
    rw [pure_ok, Except.ok.injEq] at e; subst e; exact fun _ _ h => h
  rw [if_neg c3] at e
  by_cases c4 : t = "TROP_O3"
  · rw [if_pos c4] at e
    simp only [bind_eq_ok] at e
    obtain ⟨q, hq, g, -, e⟩ := e
    rw [pure_ok, Except.ok.injEq] at e; subst e
    unfold tropO3Forcing at hq
    simp only [bind_eq_ok] at hq
    obtain ⟨y0, h0, v, hv, -, -, v0, hv0, q', hq', e⟩ := hq
    have key : ∀ t y, (∃ v, b.conc t y = some v) →
        ∃ w, (if t = "TROP_O3" ∧ y = yr then some v else b.conc t y) = some w := by
      intro t y hh
      split
      · exact ⟨_, rfl⟩
      · exact hh
    split at e <;> rw [pure_ok, Except.ok.injEq] at e <;> subst e <;> exact key
  rw [if_neg c4] at e
  by_cases c5 : t = "STRAT_H2O"
  · rw [if_pos c5] at e
    simp only [bind_eq_ok] at e
    obtain ⟨q, -, g, -, e⟩ := e
    rw [pure_ok, Except.ok.injEq] at e; subst e; exact fun _ _ h => h
  rw [if_neg c5, Except.ok.injEq] at e; subst e; exact fun _ _ h => h

/-- The forcing of a year takes no concentration away. -/
theorem conc2forc_filled {h : Handler F κ} {yr : ℤ} {luc sun : F} {r : ForcResult F × Handler F κ}
    (e : conc2forc h yr luc sun = .ok r) : ∀ t y, (∃ v, h.conc t y = some v) → ∃ v, r.2.conc t y = some v := by
  unfold conc2forc at e
  simp only [bind_eq_ok] at e
  obtain ⟨b, hb, y0, h0, i, hi, c, hc, d, hd, f, hf, e⟩ := e
  have f1 : b.conc = h.conc := by
    unfold threeMain at hb
    simp only [bind_eq_ok] at hb
    obtain ⟨_, _, _, _, _, _, _, _, _, _, _, _, _, _, _, _, _, _, _, _, i', hi', -, -, -, -, -, -, hb⟩ := hb
    rw [pure_ok, Except.ok.injEq] at hb
    subst hb
    rfl
  have f2 : ∀ t y, (∃ v, h.conc t y = some v) → ∃ v, c.conc t y = some v := by
    refine foldlM_inv (fun b : Acc F => ∀ t y, (∃ v, h.conc t y = some v) → ∃ v, b.conc t y = some v) ?_ _ _ _
      (by rw [f1]; exact fun _ _ h => h) hc
    intro b t b' hfb hx
    unfold forcStep at hx
    split at hx
    · rw [Except.ok.injEq] at hx; subst hx; exact hfb
    · rw [bind_eq_ok] at hx
      obtain ⟨q, hq, hx⟩ := hx
      rw [pure_ok, Except.ok.injEq] at hx
      subst hx
      exact fun t y hh => tracerForcing_filled hq t y (hfb t y hh)
  have f3 : d.conc = c.conc := by
    unfold addVanilla at hd
    rw [bind_eq_ok] at hd
    obtain ⟨v, -, hd⟩ := hd
    rw [pure_ok, Except.ok.injEq] at hd
    subst hd
    rfl
  have f4 : (addPert h y0 yr d).conc = d.conc := by
    unfold addPert
    split <;> rfl
  have f5 : f.conc = d.conc := by
    unfold applyJustOne at hf
    split at hf
    · rw [Except.ok.injEq] at hf; subst hf; exact f4
    · rw [bind_eq_ok] at hf
      obtain ⟨k, -, hf⟩ := hf
      rw [pure_ok, Except.ok.injEq] at hf
      subst hf
      exact f4
  rw [pure_ok, Except.ok.injEq] at e
  subst e
  intro t y hh
  have : f.conc = c.conc := f5.trans f3
  change ∃ v, f.conc t y = some v
  rw [this]
  exact f2 t y hh

/-- After a run every reported concentration has a value for every run year. -/
theorem reportConc_filled (law : YearLaw F) {cops : CarbonOps F κ} {tops : ThermalOps F τ} {d0 d d1 : Driver F κ}
    {i : Inputs F} {pamset carb : Option (Dict (PyVal F))} {h0 g : Handler F κ} {es : ℤ}
    {ps : List (RunPams F)} {p : RunPams F} {t : τ}
    (ht : RunTables i.concIn i.emis (Dict.set (Factory.checkPamset pamset) "conc_run" (.bool i.concRun))
      d0.nystart es d0.nyend)
    (hc : construct cops i pamset carb = .ok h0) (hd0 : d0.source = .handler h0)
    (ha : After cops tops d0 ps d) (hr : run cops tops d p = .ok (d1, t)) (hg : d1.source = .handler g) :
    ∀ c ∈ reportConc g, ∀ z, d0.nystart ≤ z → z ≤ d0.nyend → ∃ v, c.2 z = some v := by
  intro c hcm z z1 z2
  obtain ⟨emis, a, b, c', fb, luc, sun, r, Y, hluc, -⟩ := run_year law ht hc hd0 ha hr hg z1 z2
  obtain ⟨emis', cl, br, he, ht2, hpre, hcg, hci, hce, hcp, hcy⟩ := constructed hc ht
  obtain ⟨hvg, hpc, hsp⟩ := mem_spicy hpre
  obtain ⟨hrows, -, -⟩ := precalcConc_rows hpc (concRun_pam _ _) ht2
  have hgp : g.prec = h0.prec := by rw [Y.sameG.prec, Y.sameC.prec, Y.sameB.prec, Y.prec]
  have hgy : g.years = pyRange d0.nystart (d0.nyend + 1) := by
    rw [Y.sameG.years, Y.sameC.years, Y.sameB.years, Y.years]
  obtain ⟨k, hk, rfl⟩ := List.mem_map.1 hcm
  simp only
  rw [hgy, if_pos (by rw [mem_pyRange]; omega)]
  split
  · rename_i hkc
    rw [Y.concZ k z (le_refl _)]
    refine conc2forc_filled Y.forc k z (emi2conc_filled Y.emi k ?_)
    rw [← Y.sameC.concKeys, ← Y.sameG.concKeys]
    exact hkc
  · rw [hgp, hrows, lookup_map_pyRange, if_pos (by omega)]
    exact ⟨_, rfl⟩

omit [Add F] [Sub F] [Mul F] [Div F] [Neg F] [OfScientific F] [LT F] [DecidableLT F] [MathFn F] in
theorem mapM_all_ok {α β : Type} {f : α → Except PyErr β} : ∀ {l : List α}, (∀ x ∈ l, ∃ y, f x = .ok y) →
    ∃ ys, l.mapM f = .ok ys := by
  intro l
  induction l with
  | nil => intro _; exact ⟨[], rfl⟩
  | cons x l ih =>
    intro h
    obtain ⟨y, hy⟩ := h x (List.mem_cons_self ..)
    obtain ⟨ys, hys⟩ := ih (fun z hz => h z (List.mem_cons_of_mem _ hz))
    rw [List.mapM_cons, hy, bind_ok, hys, bind_ok]
    exact ⟨_, rfl⟩

omit [Add F] [Sub F] [Mul F] [Div F] [Neg F] [OfScientific F] [LT F] [DecidableLT F] [MathFn F] in
/-- A table with a value in every cell can be made; its columns are the given ones. -/
theorem frameOver_ok {years : List ℤ} {cols : List (String × (ℤ → Option F))}
    (h : ∀ c ∈ cols, ∀ y ∈ years, ∃ v, c.2 y = some v) :
    ∃ t, frameOver years cols = .ok t := by
  have h1 : ∀ c ∈ cols, ∃ q, columnOver years c = .ok q := by
    intro c hc
    unfold columnOver
    obtain ⟨vs, hvs⟩ := mapM_all_ok (f := cellOver c) (l := years) (by
      intro y hy
      obtain ⟨v, hv⟩ := h c hc y hy
      exact ⟨v, by unfold cellOver; rw [hv]⟩)
    rw [hvs]
    exact ⟨_, rfl⟩
  obtain ⟨q, hq⟩ := mapM_all_ok h1
  unfold frameOver
  rw [hq]
  exact ⟨_, rfl⟩

omit [Add F] [Sub F] [Mul F] [Div F] [Neg F] [OfScientific F] [LT F] [DecidableLT F] [MathFn F] in
theorem columnOver_spec {years : List ℤ} {c : String × (ℤ → Option F)} {q : String × List F}
    (h : columnOver years c = .ok q) : q.1 = c.1 ∧ years.map c.2 = q.2.map some := by
  unfold columnOver at h
  rw [bind_eq_ok] at h
  obtain ⟨vs, hvs, h⟩ := h
  rw [pure_ok, Except.ok.injEq] at h
  subst h
  refine ⟨rfl, ?_⟩
  simp only
  induction years generalizing vs with
  | nil =>
    rw [List.mapM_nil, pure_ok, Except.ok.injEq] at hvs
    subst hvs
    rfl
  | cons y l ih =>
    rw [List.mapM_cons] at hvs
    simp only [bind_eq_ok] at hvs
    obtain ⟨v, hv, vs', hvs', e⟩ := hvs
    rw [pure_ok, Except.ok.injEq] at e
    subst e
    rw [List.map_cons, List.map_cons, ih _ hvs']
    unfold cellOver at hv
    split at hv
    · rename_i w hw
      rw [Except.ok.injEq] at hv
      rw [hw, hv]
    · cases hv

omit [Add F] [Sub F] [Mul F] [Div F] [Neg F] [OfScientific F] [LT F] [DecidableLT F] [MathFn F] in
/-- The columns of a table: the years, one column for each given one. -/
theorem frameOver_spec {years : List ℤ} {cols : List (String × (ℤ → Option F))} {t : Reader.Df F}
    (h : frameOver years cols = .ok t) : t.years = years ∧
      (∀ k, k ∈ t.cols.keys ↔ k ∈ cols.map Prod.fst) ∧
      (∀ k vs, t.cols.get? k = some vs → ∃ c ∈ cols, c.1 = k ∧ years.map c.2 = vs.map some) ∧
      ((cols.map Prod.fst).Nodup → ∀ c ∈ cols, ∃ vs, t.cols.get? c.1 = some vs ∧ years.map c.2 = vs.map some) := by
  unfold frameOver at h
  rw [bind_eq_ok] at h
  obtain ⟨q, hq, h⟩ := h
  rw [pure_ok, Except.ok.injEq] at h
  subst h
  simp only
  have key : ∀ {cols : List (String × (ℤ → Option F))} {q : List (String × List F)},
      cols.mapM (columnOver years) = .ok q → q.map Prod.fst = cols.map Prod.fst ∧
      (∀ k vs, Dict.get? q k = some vs → ∃ c ∈ cols, c.1 = k ∧ years.map c.2 = vs.map some) ∧
      ((cols.map Prod.fst).Nodup → ∀ c ∈ cols, ∃ vs, Dict.get? q c.1 = some vs ∧ years.map c.2 = vs.map some) := by
    intro cols
    induction cols with
    | nil =>
      intro q hq
      rw [List.mapM_nil, pure_ok, Except.ok.injEq] at hq
      subst hq
      exact ⟨rfl, fun k vs h => by simp [Dict.get?] at h, fun _ c hc => absurd hc List.not_mem_nil⟩
    | cons c l ih =>
      intro q hq
      rw [List.mapM_cons] at hq
      simp only [bind_eq_ok] at hq
      obtain ⟨v, hv, vs', hvs', e⟩ := hq
      rw [pure_ok, Except.ok.injEq] at e
      subst e
      obtain ⟨h1, h2, h3⟩ := ih hvs'
      obtain ⟨v1, v2⟩ := v
      obtain ⟨e1, e2⟩ := columnOver_spec hv
      simp only at e1 e2
      subst e1
      refine ⟨by rw [List.map_cons, List.map_cons, h1], ?_, ?_⟩
      · intro k vs hk
        unfold Dict.get? at hk
        split at hk
        · rename_i hkk
          rw [Option.some.injEq] at hk
          subst hk
          exact ⟨c, List.mem_cons_self .., hkk, e2⟩
        · obtain ⟨c', m, x, y⟩ := h2 k vs hk
          exact ⟨c', List.mem_cons_of_mem _ m, x, y⟩
      · intro hnd c' hc'
        rw [List.map_cons, List.nodup_cons] at hnd
        unfold Dict.get?
        rcases List.mem_cons.1 hc' with rfl | hm
        · rw [if_pos rfl]; exact ⟨_, rfl, e2⟩
        · rw [if_neg (fun e => hnd.1 (List.mem_map.2 ⟨c', hm, e.symm⟩))]
          exact h3 hnd.2 c' hm
  obtain ⟨h1, h2, h3⟩ := key hq
  refine ⟨trivial, fun k => ?_, h2, h3⟩
  unfold Dict.keys
  rw [h1]

end
end Verif.Props
