import Verif.Spec.Length
import Verif.Props.C16
import Verif.Props.C03_C04
import Verif.Exec.RatRun

/-!
# C95 — the length of a run does not change its years

Two instances that differ in the last year only (`Verif/Spec/Length.lean`): the years both run are the same.
-/

namespace Verif.Props
open Verif.Py Verif.Py.Dict Verif.Model Verif.Model.Handler Verif.Model.Driver Verif.Model.CarbonInst Verif.Spec

section
variable {F κ τ : Type} [Add F] [Sub F] [Mul F] [Div F] [Neg F] [OfScientific F] [LT F] [DecidableLT F]
  [MathFn F]

/-! ## The carbon cycle models -/

/-- The same model object, constructed for another last year. -/
def IRLong (a a' : IR F) : Prop := a' = { a with years_tot := a'.years_tot }

theorem precalcR_long {a a' b b' : IR F} (h : IRLong a a') (e : precalcR a = .ok b) (e' : precalcR a' = .ok b') :
    IRLong b b' := by
  rw [h] at e'
  unfold precalcR at e e'
  simp only [bind_eq_ok] at e e'
  obtain ⟨rs, h1, rb, h2, e⟩ := e
  obtain ⟨rs', h1', rb', h2', e'⟩ := e'
  rw [h1, Except.ok.injEq] at h1'
  rw [h2, Except.ok.injEq] at h2'
  subst h1' h2'
  rw [pure_ok, Except.ok.injEq] at e e'
  subst e e'
  rfl

theorem irReset_long {a a' b b' : IR F} {q : Option (Dict (PyVal F))} (h : IRLong a a') (e : irReset a q = .ok b)
    (e' : irReset a' q = .ok b') : IRLong b b' := by
  rw [h] at e'
  unfold irReset at e e'
  rw [bind_eq_ok] at e e'
  obtain ⟨m, hm, e⟩ := e
  obtain ⟨m', hm', e'⟩ := e'
  have hmm : IRLong m m' := by
    unfold resetHold at hm hm'
    rw [bind_eq_ok] at hm hm'
    obtain ⟨x, hx, hm⟩ := hm
    obtain ⟨x', hx', hm'⟩ := hm'
    simp only at hx'
    rw [hx, Except.ok.injEq] at hx'
    subst hx'
    split at hm
    · cases hm
    split at hm'
    · cases hm'
    rw [pure_ok, Except.ok.injEq] at hm hm'
    subst hm hm'
    rfl
  cases q with
  | none =>
    simp only [Except.ok.injEq] at e e'
    subst e e'
    exact hmm
  | some p =>
    simp only at e e'
    unfold irUpdate at e e'
    rw [bind_eq_ok] at e e'
    obtain ⟨new, hn, e⟩ := e
    obtain ⟨new', hn', e'⟩ := e'
    rw [hn, Except.ok.injEq] at hn'
    subst hn'
    simp only at e e'
    have hmm' : IRLong { m with pam := irNewPam m.pam new } { m' with pam := irNewPam m'.pam new } := by
      rw [hmm]; rfl
    split at e
    · rename_i hc
      rw [if_pos hc] at e'
      exact precalcR_long hmm' e e'
    · rename_i hc
      rw [if_neg hc] at e'
      rw [Except.ok.injEq] at e e'
      subst e e'
      exact hmm'

/-- C95: the default carbon cycle model does not look at the last year. -/
theorem C95_impulse : EndBlind (irOps (F := F)) := by
  refine ⟨IRLong, ?_, fun k k' q c c' h e e' => irReset_long h e e', ?_⟩
  · intro p p' q k k' w w' hp e e'
    have ht : ∀ x, x ≠ "nyend" → pamI (cutAndCheckPamset timeRequired p' []) x =
        pamI (cutAndCheckPamset (timeRequired (F := F)) p []) x := by
      intro x hx
      have hreq : WF (timeRequired (F := F)) := by
        simp only [timeRequired, WF, Dict.keys, List.map_cons, List.map_nil]; decide
      unfold pamI getE
      rw [C01_value _ _ _ hreq w', C01_value _ _ _ hreq w, hp x hx]
    simp only [irOps, irCreate, bind_eq_ok] at e e'
    obtain ⟨r, h1, pam, h2, i, h3, ns, h4, ne, h5, e⟩ := e
    obtain ⟨r', h1', pam', h2', i', h3', ns', h4', ne', h5', e'⟩ := e'
    rw [h1, Except.ok.injEq] at h1'
    subst h1'
    rw [h2, Except.ok.injEq] at h2'
    subst h2'
    rw [ht _ (by decide), h3, Except.ok.injEq] at h3'
    rw [ht _ (by decide), h4, Except.ok.injEq] at h4'
    subst h3' h4'
    split at e
    · cases e
    · rename_i hi
      rw [if_neg hi] at e'
      simp only [bind_eq_ok] at e e'
      obtain ⟨m, h6, k1, h7, e⟩ := e
      obtain ⟨m', h6', k1', h7', e'⟩ := e'
      rw [h6, Except.ok.injEq] at h6'
      subst h6'
      refine precalcR_long (irReset_long ?_ h7 h7') e e'
      rfl
  · intro k k' y em fb r r' h e e'
    rw [h] at e'
    simp only [irOps, irStep, bind_eq_ok] at e e'
    obtain ⟨p, hp, e⟩ := e
    obtain ⟨p', hp', e'⟩ := e'
    have hpp : p' = { p with years_tot := p'.years_tot } := by
      unfold irPams at hp hp'
      simp only [bind_eq_ok] at hp hp'
      obtain ⟨x1, g1, x2, g2, x3, g3, x4, g4, x5, g5, x6, g6, x7, g7, x8, g8, x9, g9, x10, g10, x11, g11, x12, g12,
        x13, g13, hp⟩ := hp
      obtain ⟨y1, j1, y2, j2, y3, j3, y4, j4, y5, j5, y6, j6, y7, j7, y8, j8, y9, j9, y10, j10, y11, j11, y12, j12,
        y13, j13, hp'⟩ := hp'
      rw [g1, Except.ok.injEq] at j1
      rw [g2, Except.ok.injEq] at j2
      rw [g3, Except.ok.injEq] at j3
      rw [g4, Except.ok.injEq] at j4
      rw [g5, Except.ok.injEq] at j5
      rw [g6, Except.ok.injEq] at j6
      rw [g7, Except.ok.injEq] at j7
      rw [g8, Except.ok.injEq] at j8
      rw [g9, Except.ok.injEq] at j9
      rw [g10, Except.ok.injEq] at j10
      rw [g11, Except.ok.injEq] at j11
      rw [g12, Except.ok.injEq] at j12
      rw [g13, Except.ok.injEq] at j13
      subst j1 j2 j3 j4 j5 j6 j7 j8 j9 j10 j11 j12 j13
      rw [pure_ok, Except.ok.injEq] at hp hp'
      subst hp hp'
      rfl
    split at e
    · cases e
    split at e
    · cases e
    split at e'
    · cases e'
    split at e'
    · cases e'
    rw [pure_ok, Except.ok.injEq] at e e'
    subst e e'
    rw [hpp]
    exact ⟨rfl, rfl⟩

/-- C95: the box model does not look at the last year. -/
theorem C95_box : EndBlind (boxOps (F := F)) := by
  refine ⟨Eq, ?_, ?_, ?_⟩
  · intro p p' q k k' _ _ _ e e'
    simp only [boxOps, boxCreate] at e e'
    rw [e, Except.ok.injEq] at e'
    exact e'
  · rintro k _ q c c' rfl e e'
    rw [e, Except.ok.injEq] at e'
    exact e'
  · rintro k _ y em fb r r' rfl e e'
    rw [e, Except.ok.injEq] at e'
    subst e'
    exact ⟨rfl, rfl⟩

end

/-- Sanitised parameter sets differ in the last year only if the given ones do. -/
theorem checkPamset_sameButEnd {F : Type} [OfScientific F] [Neg F] [Div F] {p p' : Dict (PyVal F)} (w : WF p) (w' : WF p')
    (h : SameButEnd p p') : SameButEnd (Factory.checkPamset (some p)) (Factory.checkPamset (some p')) := by
  have key : ∀ (q q' : Dict (PyVal F)) (a : String) (v : PyVal F), WF q → WF q' → SameButEnd q q' → a ≠ "nyend" →
      WF (if q.has a then q else q.set a v) ∧ WF (if q'.has a then q' else q'.set a v) ∧
      SameButEnd (if q.has a then q else q.set a v) (if q'.has a then q' else q'.set a v) := by
    intro q q' a v w w' h ha
    have e : q'.has a = q.has a := by unfold Dict.has; rw [h a ha]
    rw [e]
    split
    · exact ⟨w, w', h⟩
    · refine ⟨WF_set _ _ _ w, WF_set _ _ _ w', fun k hk => ?_⟩
      rw [get?_set, get?_set, h k hk]
  intro k hk
  unfold Factory.checkPamset
  simp only [Option.getD_some]
  obtain ⟨a1, a2, a3⟩ := key p p' "lifetime_mode" (.str "TAR") w w' h (by decide)
  obtain ⟨b1, b2, b3⟩ := key _ _ "carbon_cycle_model" (.str "default") a1 a2 a3 (by decide)
  rw [C01_value _ _ _ WF_handlerRequired b2, C01_value _ _ _ WF_handlerRequired b1, b3 k hk]

section
variable {F κ τ : Type} [Add F] [Sub F] [Mul F] [Div F] [Neg F] [OfScientific F] [LT F] [DecidableLT F]
  [MathFn F]

/-! ## Runs -/

/-- C95 for prescribed forcing: two instances that differ in the last year of the run only (their forcing may end in different
years too), run with the same thermal parameters, have the same result series in every year of the shorter run. -/
theorem C95_forcing_run {cops : CarbonOps F κ} {tops : ThermalOps F τ} {d d' d1 d1' : Driver F κ}
    {rf rf' : Forcing F} {p p' : RunPams F} {t t' : τ}
    (hnd : (tops.outputs.map Prod.fst ++ forcOutputList).Nodup)
    (hs : SeriesLonger d.nyend d d') (hd : d.source = .forcing rf) (hd' : d'.source = .forcing rf')
    (hf : ForcingLonger d.nystart d.nyend rf rf') (hudm : p'.udm = p.udm)
    (hr : run cops tops d p = .ok (d1, t)) (hr' : run cops tops d' p' = .ok (d1', t')) :
    ∀ z, d.nystart ≤ z → z ≤ d.nyend →
      ∀ o ∈ tops.outputs.map Prod.fst ++ forcOutputList,
        entry d1'.results o (z - d.nystart).toNat = entry d1.results o (z - d.nystart).toNat :=
  fun z z1 z2 => forcingRun_longer hnd hs hd hd' hf hudm hr hr' z z1 z2 z2

/-- C95 for emission and concentration runs: two instances that differ in the last year of the run only (their tables may end
in different years too), run with the same parameter sets, have the same result series, reported concentrations and reported
forcings in every year of the shorter run. Partial: not if the emission period begins in the last year of the shorter run
(`SameRegime`). -/
theorem C95_emission_run_partial {cops : CarbonOps F κ} {tops : ThermalOps F τ} {d d' d1 d1' : Driver F κ}
    {i i' : Inputs F} {h h' : Handler F κ} {pamset pamset' carb : Option (Dict (PyVal F))} {p : RunPams F}
    {t t' : τ} {ref es : ℤ} (hb : EndBlind cops)
    (hnd : (tops.outputs.map Prod.fst ++ forcOutputList).Nodup) (hgas : i.gas.keys.Nodup)
    (hi : InputsLonger d.nyend ref i i') (hs : SeriesLonger d.nyend d d')
    (hpam : SameButEnd (Factory.checkPamset pamset) (Factory.checkPamset pamset'))
    (hreg : SameRegime i.concRun es d.nyend d'.nyend)
    (hc : construct cops i pamset carb = .ok h) (hc' : construct cops i' pamset' carb = .ok h')
    (hd : d.source = .handler h) (hd' : d'.source = .handler h')
    (htab : RunTables i.concIn i.emis
      (Dict.set (Factory.checkPamset pamset) "conc_run" (.bool i.concRun)) d.nystart es d.nyend)
    (htab' : RunTables i'.concIn i'.emis
      (Dict.set (Factory.checkPamset pamset') "conc_run" (.bool i'.concRun)) d.nystart es d'.nyend)
    (href : pamI (Factory.checkPamset p.emiconc) "ref_yr" = .ok ref)
    (hr : run cops tops d p = .ok (d1, t)) (hr' : run cops tops d' p = .ok (d1', t')) :
    SameResults tops d.nystart d.nyend d1 d1' := by
  obtain ⟨C, b1, b2, b3⟩ := hb
  obtain ⟨g, g', e, e', hz⟩ := run_agree (y := d.nyend) (E := EmisCell d.nyend ref) (K := ConcCell d.nyend ref)
    (fun _ => C) hnd hs hd hd' rfl htab.nonempty
    (by
      intro hy g g' hreset hreset'
      obtain ⟨a0, ap, akeys, ayears, ayears'⟩ := start_longer C hi hgas hy hpam (Or.inr ⟨le_refl _, hs.nyend⟩)
        (by
          have := hs.nyend
          rcases hreg with hreg | hreg | hreg
          · exact Or.inl hreg
          · exact Or.inr ⟨fun h => by omega, fun h => by omega⟩
          · exact Or.inr ⟨fun h => by omega, fun h => by omega⟩)
        htab htab'
        (by
          intro pre k0 k0' k k' c c' a1 a2 a3 a4 a5 a6
          refine b2 _ _ _ _ _ (b2 _ _ _ _ _ (b1 _ _ _ _ _ (WF_set _ _ _ (WF_checkPamset _))
            (WF_set _ _ _ (WF_checkPamset _)) ?_ a1 a2) a3 a4) a5 a6
          intro x hx
          rw [get?_set, get?_set, hpam x hx])
        hc hc' hreset hreset'
      refine ⟨a0, ap, akeys, ayears, ayears', concKeys_nodup hgas hc hreset, co2Unit_reset hreset, ?_, ?_,
        fun _ _ _ _ _ e => e⟩
      · refine ⟨fun a b hab hb => le_trans hab hb, fun _ _ h => Or.inl h, fun _ _ h => Or.inl h,
          fun t ht => Or.inr ⟨ht, Or.inl rfl⟩, ?_⟩
        intro r hrr
        have := ref_after_reset hreset href hrr
        subst this
        exact ⟨fun t ht => Or.inr ⟨ht, Or.inr rfl⟩, Or.inr ⟨rfl, rfl⟩⟩
      · intro _ z k k' fb _ _ hk em r r' e e'
        exact b3 _ _ _ _ _ _ _ hk e e')
    hr hr'
  exact ⟨g, g', e, e', fun z z1 z2 => hz z z1 z2 z2⟩

end

/-! ## Cases -/

open Verif.Exec Verif.Model.ThermalInst

/-- The time frame of an instance: 2000 to `ne`, emissions from `es`. -/
def lengthPam (es ne : ℤ) : Option (Dict (PyVal ℚ)) :=
  some [("nystart", .int 2000), ("nyend", .int ne), ("emstart", .int es)]

/-- An instance that runs to `ne`. -/
def lengthDriver {κ : Type} (h : Handler ℚ κ) (ne : ℤ) : Driver ℚ κ :=
  { nystart := 2000, nyend := ne, source := .handler h, feedbackList := some ["dtemp"],
    volcN := (pyRange 2000 (ne + 1)).map (fun y => if y = 2001 then [-1] else [0]),
    volcS := (pyRange 2000 (ne + 1)).map (fun y => if y = 2001 then [-1] else [0]),
    sun := (pyRange 2000 (ne + 1)).map (fun y => if y = 2001 then 1 else 0),
    luc := (pyRange 2000 (ne + 1)).map (fun y => if y = 2003 then 1 else 0), results := [] }

/-- An instance with this time frame, and its run. -/
def lengthRun (es ne : ℤ) : Except PyErr (Driver ℚ ℚ × (TwoLayer.Pams ℚ × TwoLayer.State ℚ)) := do
  let h ← construct toyCarbon (toyInputs false risingEmis risingConc none none) (lengthPam es ne) none
  run toyCarbon twoLayerOps (lengthDriver h ne) ⟨none, none, none⟩

theorem toyCarbon_blind : EndBlind toyCarbon := by
  refine ⟨Eq, ?_, ?_, ?_⟩
  · intro p p' q k k' _ _ _ e e'
    simp only [toyCarbon, Except.ok.injEq] at e e'
    rw [← e, ← e']
  · intro k k' q c c' _ e e'
    simp only [toyCarbon, Except.ok.injEq] at e e'
    rw [← e, ← e']
  · rintro k _ y em fb r r' rfl e e'
    rw [e, Except.ok.injEq] at e'
    subst e'
    exact ⟨rfl, rfl⟩

theorem inputsLonger_self {F : Type} (y ref : ℤ) (i : Inputs F) : InputsLonger y ref i i :=
  ⟨rfl, rfl, ⟨rfl, fun _ _ _ => Iff.rfl, fun _ _ _ _ _ => rfl⟩, ⟨rfl, fun _ _ _ => Iff.rfl, fun _ _ _ _ _ => rfl⟩,
    ⟨rfl, fun _ _ _ => Iff.rfl, fun _ _ _ _ _ => rfl⟩, ⟨rfl, fun _ _ _ => Iff.rfl, fun _ _ _ _ _ => rfl⟩,
    fun _ _ => rfl, fun _ _ _ _ => rfl, fun _ _ => rfl⟩

theorem rows_longer {α : Type} (f : ℤ → α) {ne ne' : ℤ} (h : ne ≤ ne') :
    RowsUpTo 2000 ne ((pyRange 2000 (ne + 1)).map f) ((pyRange 2000 (ne' + 1)).map f) := by
  intro n hn
  rw [List.getElem?_map, List.getElem?_map]
  congr 1
  unfold pyRange
  rw [List.getElem?_map, List.getElem?_map, List.getElem?_range (by omega), List.getElem?_range (by omega)]

theorem seriesLonger_length {κ : Type} (h h' : Handler ℚ κ) {ne ne' : ℤ} (hle : ne ≤ ne') :
    SeriesLonger ne (lengthDriver h ne) (lengthDriver h' ne') :=
  ⟨rfl, hle, rfl, rows_longer _ hle, rows_longer _ hle, rows_longer _ hle, rows_longer _ hle⟩

theorem lengthPam_same (es ne ne' : ℤ) :
    SameButEnd (Factory.checkPamset (lengthPam es ne)) (Factory.checkPamset (lengthPam es ne')) := by
  apply checkPamset_sameButEnd
  · show ["nystart", "nyend", "emstart"].Nodup
    decide
  · show ["nystart", "nyend", "emstart"].Nodup
    decide
  · intro k hk
    simp only [get?_cons, get?_nil]
    rw [if_neg (c := "nyend" = k) (fun x => hk x.symm), if_neg (c := "nyend" = k) (fun x => hk x.symm)]

theorem lengthTables_2002_2003 : RunTables (toyInputs false risingEmis risingConc none none).concIn
    (toyInputs false risingEmis risingConc none none).emis
    (Dict.set (Factory.checkPamset (lengthPam 2002 2003)) "conc_run"
      (.bool (toyInputs false risingEmis risingConc none none).concRun)) 2000 2002 2003 :=
  ⟨by decide +kernel, by decide +kernel, by decide +kernel, ⟨2000, 2012, rfl, by decide, by decide⟩,
    ⟨2000, 2012, rfl, by decide, by decide⟩, by decide, fun _ => by decide⟩

theorem lengthTables_2002_2005 : RunTables (toyInputs false risingEmis risingConc none none).concIn
    (toyInputs false risingEmis risingConc none none).emis
    (Dict.set (Factory.checkPamset (lengthPam 2002 2005)) "conc_run"
      (.bool (toyInputs false risingEmis risingConc none none).concRun)) 2000 2002 2005 :=
  ⟨by decide +kernel, by decide +kernel, by decide +kernel, ⟨2000, 2012, rfl, by decide, by decide⟩,
    ⟨2000, 2012, rfl, by decide, by decide⟩, by decide, fun _ => by decide⟩

theorem lengthTables_2003_2003 : RunTables (toyInputs false risingEmis risingConc none none).concIn
    (toyInputs false risingEmis risingConc none none).emis
    (Dict.set (Factory.checkPamset (lengthPam 2003 2003)) "conc_run"
      (.bool (toyInputs false risingEmis risingConc none none).concRun)) 2000 2003 2003 :=
  ⟨by decide +kernel, by decide +kernel, by decide +kernel, ⟨2000, 2012, rfl, by decide, by decide⟩,
    ⟨2000, 2012, rfl, by decide, by decide⟩, by decide, fun _ => by decide⟩

theorem lengthTables_2003_2004 : RunTables (toyInputs false risingEmis risingConc none none).concIn
    (toyInputs false risingEmis risingConc none none).emis
    (Dict.set (Factory.checkPamset (lengthPam 2003 2004)) "conc_run"
      (.bool (toyInputs false risingEmis risingConc none none).concRun)) 2000 2003 2004 :=
  ⟨by decide +kernel, by decide +kernel, by decide +kernel, ⟨2000, 2012, rfl, by decide, by decide⟩,
    ⟨2000, 2012, rfl, by decide, by decide⟩, by decide, fun _ => by decide⟩

/-- Both runs succeed and the results of 2003 are equal and not zero, with emissions from 2002. -/
theorem length_runs :
    (match construct toyCarbon (toyInputs false risingEmis risingConc none none) (lengthPam 2002 2003) none,
        construct toyCarbon (toyInputs false risingEmis risingConc none none) (lengthPam 2002 2005) none with
     | .ok h, .ok h' =>
       (match run toyCarbon twoLayerOps (lengthDriver h 2003) ⟨none, none, none⟩,
          run toyCarbon twoLayerOps (lengthDriver h' 2005) ⟨none, none, none⟩ with
        | .ok r, .ok r' => decide (entry r.1.results "dT_glob" 3 = entry r'.1.results "dT_glob" 3 ∧
            entry r.1.results "dT_glob" 3 ≠ some 0)
        | _, _ => false)
     | _, _ => false) = true := by decide +kernel

/-- Every hypothesis of `C95_emission_run_partial` is met by this pair. -/
example : ∃ h h' d1 d1' t t',
    construct toyCarbon (toyInputs false risingEmis risingConc none none) (lengthPam 2002 2003) none = .ok h ∧
    construct toyCarbon (toyInputs false risingEmis risingConc none none) (lengthPam 2002 2005) none = .ok h' ∧
    run toyCarbon twoLayerOps (lengthDriver h 2003) ⟨none, none, none⟩ = .ok (d1, t) ∧
    run toyCarbon twoLayerOps (lengthDriver h' 2005) ⟨none, none, none⟩ = .ok (d1', t') ∧
    SameResults twoLayerOps 2000 2003 d1 d1' := by
  have h0 := length_runs
  cases hc : construct toyCarbon (toyInputs false risingEmis risingConc none none) (lengthPam 2002 2003) none with
  | error e => rw [hc] at h0; cases h0
  | ok h =>
    cases hc' : construct toyCarbon (toyInputs false risingEmis risingConc none none) (lengthPam 2002 2005) none with
    | error e => rw [hc, hc'] at h0; cases h0
    | ok h' =>
      rw [hc, hc'] at h0
      simp only at h0
      cases hr : run toyCarbon twoLayerOps (lengthDriver h 2003) ⟨none, none, none⟩ with
      | error e => rw [hr] at h0; cases h0
      | ok r =>
        cases hr' : run toyCarbon twoLayerOps (lengthDriver h' 2005) ⟨none, none, none⟩ with
        | error e => rw [hr, hr'] at h0; cases h0
        | ok r' =>
          refine ⟨h, h', r.1, r'.1, r.2, r'.2, rfl, rfl, hr, hr', ?_⟩
          exact C95_emission_run_partial (ref := 2010) (es := 2002) (p := ⟨none, none, none⟩) toyCarbon_blind
            (by decide +kernel) (by decide +kernel)
            (inputsLonger_self _ _ _) (seriesLonger_length h h' (show (2003 : ℤ) ≤ 2005 by decide)) (lengthPam_same _ _ _)
            (Or.inr (Or.inl (show (2002 : ℤ) < 2003 by decide))) hc hc' rfl rfl
            lengthTables_2002_2003 lengthTables_2002_2005
            (by decide +kernel) hr hr'

/-- With emissions from 2003, the forcing of CFC-11 in 2003 differs between a run that ends in 2003 and one that ends in
2004. -/
theorem length_runs_differ :
    (match construct toyCarbon (toyInputs false risingEmis risingConc none none) (lengthPam 2003 2003) none,
        construct toyCarbon (toyInputs false risingEmis risingConc none none) (lengthPam 2003 2004) none with
     | .ok h, .ok h' =>
       (match run toyCarbon twoLayerOps (lengthDriver h 2003) ⟨none, none, none⟩,
          run toyCarbon twoLayerOps (lengthDriver h' 2004) ⟨none, none, none⟩ with
        | .ok r, .ok r' => decide (entry r.1.results "dT_glob" 3 ≠ entry r'.1.results "dT_glob" 3)
        | _, _ => false)
     | _, _ => false) = true := by decide +kernel

/-- C95 is false of the code if the emission period begins in the last year of the shorter run: the year is then computed from
the prescribed concentrations of some gases, and from their emissions in the longer run. -/
theorem C95_last_year_false : ¬ ∀ (i : Inputs ℚ) (es ne ne' : ℤ) (h h' : Handler ℚ ℚ) (d1 d1' : Driver ℚ ℚ)
    (t t' : TwoLayer.Pams ℚ × TwoLayer.State ℚ),
    i.gas.keys.Nodup → ne ≤ ne' →
    construct toyCarbon i (lengthPam es ne) none = .ok h →
    construct toyCarbon i (lengthPam es ne') none = .ok h' →
    RunTables i.concIn i.emis (Dict.set (Factory.checkPamset (lengthPam es ne)) "conc_run" (.bool i.concRun)) 2000 es ne →
    RunTables i.concIn i.emis (Dict.set (Factory.checkPamset (lengthPam es ne')) "conc_run" (.bool i.concRun)) 2000 es ne' →
    run toyCarbon twoLayerOps (lengthDriver h ne) ⟨none, none, none⟩ = .ok (d1, t) →
    run toyCarbon twoLayerOps (lengthDriver h' ne') ⟨none, none, none⟩ = .ok (d1', t') →
    SameResults twoLayerOps 2000 ne d1 d1' := by
  intro hall
  have h0 := length_runs_differ
  cases hc : construct toyCarbon (toyInputs false risingEmis risingConc none none) (lengthPam 2003 2003) none with
  | error e => rw [hc] at h0; cases h0
  | ok h =>
    cases hc' : construct toyCarbon (toyInputs false risingEmis risingConc none none) (lengthPam 2003 2004) none with
    | error e => rw [hc, hc'] at h0; cases h0
    | ok h' =>
      rw [hc, hc'] at h0
      simp only at h0
      cases hr : run toyCarbon twoLayerOps (lengthDriver h 2003) ⟨none, none, none⟩ with
      | error e => rw [hr] at h0; cases h0
      | ok r =>
        cases hr' : run toyCarbon twoLayerOps (lengthDriver h' 2004) ⟨none, none, none⟩ with
        | error e => rw [hr, hr'] at h0; cases h0
        | ok r' =>
          rw [hr, hr'] at h0
          simp only [decide_eq_true_eq] at h0
          obtain ⟨g, g', -, -, hz⟩ := hall (toyInputs false risingEmis risingConc none none) 2003 2003 2004 h h' r.1 r'.1
            r.2 r'.2 (by decide +kernel) (by decide) hc hc'
            lengthTables_2003_2003 lengthTables_2003_2004 hr hr'
          obtain ⟨hz, -⟩ := hz 2003 (by decide) (by decide)
          exact h0 (hz "dT_glob" (by decide +kernel)).symm

/-- An instance with prescribed forcing that rises by one per year. -/
def lengthForcing (ne : ℤ) : Driver ℚ ℚ :=
  { nystart := 2000, nyend := ne, source := .forcing (.array ((pyRange 2000 (ne + 1)).map (fun y => ((y - 2000 : ℤ) : ℚ)))),
    feedbackList := none,
    volcN := (pyRange 2000 (ne + 1)).map (fun _ => [0]), volcS := (pyRange 2000 (ne + 1)).map (fun _ => [0]),
    sun := (pyRange 2000 (ne + 1)).map (fun _ => 0), luc := (pyRange 2000 (ne + 1)).map (fun _ => 0), results := [] }

theorem length_forcing_runs :
    (match run toyCarbon twoLayerOps (lengthForcing 2003) ⟨none, none, none⟩,
        run toyCarbon twoLayerOps (lengthForcing 2005) ⟨none, none, none⟩ with
     | .ok r, .ok _ => decide (entry r.1.results "dT_glob" 3 ≠ some 0)
     | _, _ => false) = true := by decide +kernel

/-- Every hypothesis of `C95_forcing_run` is met by this pair. -/
example : ∃ d1 d1' t t', run toyCarbon twoLayerOps (lengthForcing 2003) ⟨none, none, none⟩ = .ok (d1, t) ∧
    run toyCarbon twoLayerOps (lengthForcing 2005) ⟨none, none, none⟩ = .ok (d1', t') ∧
    entry d1.results "dT_glob" 3 ≠ some 0 ∧ entry d1'.results "dT_glob" 3 = entry d1.results "dT_glob" 3 := by
  have h0 := length_forcing_runs
  cases hr : run toyCarbon twoLayerOps (lengthForcing 2003) ⟨none, none, none⟩ with
  | error e => rw [hr] at h0; cases h0
  | ok r =>
    cases hr' : run toyCarbon twoLayerOps (lengthForcing 2005) ⟨none, none, none⟩ with
    | error e => rw [hr, hr'] at h0; cases h0
    | ok r' =>
      rw [hr, hr'] at h0
      simp only [decide_eq_true_eq] at h0
      have le : (2003 : ℤ) ≤ 2005 := by decide
      refine ⟨r.1, r'.1, r.2, r'.2, rfl, rfl, h0, ?_⟩
      exact C95_forcing_run (d := lengthForcing 2003) (d' := lengthForcing 2005) (by decide +kernel)
        ⟨rfl, le, rfl, rows_longer _ le, rows_longer _ le, rows_longer _ le, rows_longer _ le⟩ rfl rfl
        (rows_longer _ le) rfl hr hr' 2003 (by decide) (by decide) "dT_glob" (by decide +kernel)

end Verif.Props
