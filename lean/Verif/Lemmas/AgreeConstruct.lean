import Verif.Lemmas.RunHandler
import Verif.Lemmas.Precalc
import Verif.Lemmas.Perturb
import Verif.Props.C15
import Verif.Spec.LookAhead

/-! # Handlers constructed from inputs that agree up to a year -/

namespace Verif.Model.Handler
open Verif.Py Verif.Model Verif.Spec

section
variable {F κ : Type} [Add F] [Sub F] [Mul F] [Div F] [Neg F] [OfScientific F] [LT F] [DecidableLT F]
  [MathFn F]

/-! ## Emission perturbations -/

omit [Sub F] [Mul F] [Div F] [Neg F] [OfScientific F] [LT F] [DecidableLT F] [MathFn F] in
theorem perturbEmissions_fold {rows : List (PertRow F)} {t t' : Table F}
    (h : perturbEmissions t rows = .ok t') :
    t'.cols = t.cols ∧ ∀ c y, t'.val c y =
      (rows.filter (fun r => pertTarget t r.component = c ∧ r.year = y)).foldl
        (fun o r => o.map (· + r.value)) (t.val c y) := by
  unfold perturbEmissions at h
  induction rows generalizing t with
  | nil =>
    rw [foldlM_nil_ok] at h
    subst h
    exact ⟨rfl, fun _ _ => rfl⟩
  | cons r rows ih =>
    rw [foldlM_cons_ok] at h
    obtain ⟨m, hm, h⟩ := h
    unfold perturbEmissionsStep at hm
    simp only [bind_eq_ok] at hm
    obtain ⟨old, hold, hm⟩ := hm
    rw [pure_ok, Except.ok.injEq] at hm
    subst hm
    obtain ⟨i1, i2⟩ := ih h
    refine ⟨i1, ?_⟩
    intro c y
    rw [i2 c y, List.filter_cons]
    have hcols : ∀ comp, pertTarget (t.setAt (pertTarget t r.component) r.year (old + r.value)) comp =
        pertTarget t comp := fun comp => rfl
    simp only [hcols]
    by_cases hc : pertTarget t r.component = c ∧ r.year = y
    · rw [if_pos (by simpa using hc), List.foldl_cons]
      congr 1
      obtain ⟨rfl, rfl⟩ := hc
      have : t.val (pertTarget t r.component) r.year = some old := by
        unfold Table.at' at hold
        split at hold
        · split at hold
          · rename_i v hv; rw [Except.ok.injEq] at hold; rw [hv, hold]
          · cases hold
        · cases hold
      rw [this]
      simp [Table.setAt]
    · rw [if_neg (by simpa using hc)]
      congr 1
      simp only [Table.setAt]
      rw [if_neg (by rintro ⟨e1, e2⟩; exact hc ⟨e1.symm, e2.symm⟩)]

omit [Sub F] [Mul F] [Div F] [Neg F] [OfScientific F] [LT F] [DecidableLT F] [MathFn F] in
/-- The (perturbed) emission table, cell by cell. -/
theorem perturbedEmis_cell {inp : Inputs F} {emis : Frame F} (h : perturbedEmis inp = .ok emis) :
    emis.cols = inp.emis.cols ∧ emis.idx = inp.emis.idx ∧
    ∀ c, ∀ y ∈ inp.emis.idx, some (emis.cell c y) =
      ((inp.pertEm.getD []).filter (fun r => pertTarget inp.emis.toTable r.component = c ∧ r.year = y)).foldl
        (fun o r => o.map (· + r.value)) (some (inp.emis.cell c y)) := by
  unfold perturbedEmis at h
  split at h
  · rename_i hn
    rw [Except.ok.injEq] at h
    subst h
    rw [hn]
    exact ⟨rfl, rfl, fun _ _ _ => rfl⟩
  · rename_i rows hn
    rw [bind_eq_ok] at h
    obtain ⟨t, ht, h⟩ := h
    rw [pure_ok, Except.ok.injEq] at h
    subst h
    refine ⟨rfl, rfl, ?_⟩
    intro c y hy
    rw [hn]
    simp only [Option.getD_some, Frame.withTable]
    have := (perturbEmissions_fold ht).2 c y
    have h0 : inp.emis.toTable.val c y = some (inp.emis.cell c y) := by
      simp [Frame.toTable, hy]
    rw [h0] at this
    rw [this]
    have key : ∀ (l : List (PertRow F)) (x : F), ∃ z,
        l.foldl (fun o r => o.map (· + r.value)) (some x) = some z := by
      intro l
      induction l with
      | nil => intro x; exact ⟨x, rfl⟩
      | cons r l ih => intro x; exact ih _
    obtain ⟨z, hz⟩ := key (rows.filter (fun r => pertTarget inp.emis.toTable r.component = c ∧ r.year = y))
      (inp.emis.cell c y)
    rw [hz]
    rfl

theorem filter_of_year {rows : List (PertRow F)} {p : PertRow F → Bool} {y : ℤ} :
    rows.filter (fun r => p r ∧ r.year = y) = (rows.filter (fun r => r.year = y)).filter p := by
  rw [List.filter_filter]
  apply List.filter_congr
  intro r _
  simp

omit [Add F] [Sub F] [Mul F] [Div F] [Neg F] [OfScientific F] [LT F] [DecidableLT F] [MathFn F] in
theorem _root_.Verif.Spec.FrameAgree.upTo {E : String → ℤ → Prop} {t t' : Frame F} (h : FrameAgree E t t') :
    FrameUpTo E t t' := ⟨h.cols, fun _ _ _ => by rw [h.idx], h.cell⟩

omit [Add F] [Sub F] [Mul F] [Div F] [Neg F] [OfScientific F] [LT F] [DecidableLT F] [MathFn F] in
theorem _root_.Verif.Spec.InputsUpTo.longer {i i' : Inputs F} {y ref : ℤ} (h : InputsUpTo y ref i i') :
    InputsLonger y ref i i' :=
  ⟨h.gas, h.concRun, h.natCh4.upTo, h.natN2o.upTo, h.concIn.upTo, h.emis.upTo, h.pertEm, h.pertEmRef, h.pertForc⟩

omit [Sub F] [Mul F] [Div F] [Neg F] [OfScientific F] [LT F] [DecidableLT F] [MathFn F] in
theorem emis_agree {i i' : Inputs F} {y ref : ℤ} (hi : InputsLonger y ref i i') {e e' : Frame F}
    (h : perturbedEmis i = .ok e) (h' : perturbedEmis i' = .ok e') :
    FrameUpTo (EmisCell y ref) e e' := by
  obtain ⟨a1, a2, a3⟩ := perturbedEmis_cell h
  obtain ⟨b1, b2, b3⟩ := perturbedEmis_cell h'
  refine ⟨by rw [b1, hi.emis.cols, a1], by rw [b2, a2]; exact hi.emis.idx, ?_⟩
  intro c hc z hz hE
  rw [a1] at hc
  rw [a2] at hz
  have e1 := a3 c z hz
  have e2 := b3 c z ((hi.emis.idx c z hE).2 hz)
  rw [hi.emis.cell c hc z hz hE] at e2
  have ht : ∀ comp, pertTarget i'.emis.toTable comp = pertTarget i.emis.toTable comp := by
    intro comp
    unfold pertTarget Frame.toTable
    simp only [hi.emis.cols]
  have hrows : (i'.pertEm.getD []).filter (fun r => pertTarget i'.emis.toTable r.component = c ∧ r.year = z) =
      (i.pertEm.getD []).filter (fun r => pertTarget i.emis.toTable r.component = c ∧ r.year = z) := by
    simp only [ht]
    have key : ∀ rows : Option (List (PertRow F)),
        (rows.getD []).filter (fun r => pertTarget i.emis.toTable r.component = c ∧ r.year = z) =
        (rowsOf rows z).filter (fun r => pertTarget i.emis.toTable r.component = c) := by
      intro rows
      unfold rowsOf
      rw [List.filter_filter]
      apply List.filter_congr
      intro r _
      simp
    rw [key, key]
    rcases hE with hle | ⟨hcc, href⟩
    · rw [hi.pertEm z hle]
    · have key2 : ∀ l : List (PertRow F), l.filter (fun r => pertTarget i.emis.toTable r.component = c) =
          l.filter (fun r => r.component = c) := by
        intro l
        apply List.filter_congr
        intro r _
        have : pertTarget i.emis.toTable r.component = c ↔ r.component = c := by
          unfold pertTarget
          split
          · rename_i hh
            rw [hh.1]
            simp only [List.mem_cons, List.not_mem_nil, or_false] at hcc
            rcases hcc with rfl | rfl | rfl <;> simp
          · rfl
        simp [this]
      rw [key2, key2, hi.pertEmRef c hcc z href]
  rw [hrows, ← e1] at e2
  exact Option.some.inj e2

/-! ## The gases computed ahead -/

/-- The tables cover the run years with consecutive years. -/
structure RunTables (concIn emis : Frame F) (pam : Dict (PyVal F)) (ns es ne : ℤ) : Prop where
  nystart : pamI pam "nystart" = .ok ns
  nyend : pamI pam "nyend" = .ok ne
  emstart : pamI pam "emstart" = .ok es
  concIdx : ∃ i j, concIn.idx = pyRange i j ∧ i ≤ ns ∧ ne < j
  emisIdx : ∃ k l, emis.idx = pyRange k l ∧ k ≤ es ∧ ne < l
  nonempty : ns ≤ ne
  order : pamB pam "conc_run" = .ok false → ns < es

/-- The concentration series of the gases computed ahead. -/
def preSeries (gas : Dict (Gas F)) (concIn emis : Frame F) (run : Bool) (es ne : ℤ) (c : String) (y : ℤ) : F :=
  if run = true ∨ ne ≤ es then concIn.cell c y else series (gasOr gas) concIn emis es c y

theorem precalcConc_rows {gas : Dict (Gas F)} {concIn emis : Frame F} {pam : Dict (PyVal F)}
    {gases : List String} {rows : List (Row F)} {ns es ne : ℤ} {r : Bool}
    (h : precalcConc gas concIn emis pam gases = .ok rows)
    (hrun : pamB pam "conc_run" = .ok r) (hc : RunTables concIn emis pam ns es ne) :
    rows = (pyRange ns (ne + 1)).map (fun y => (y, fun c => preSeries gas concIn emis r es ne c y)) ∧
    (∀ c ∈ gases, c ∈ concIn.cols) ∧ (¬ (r = true ∨ ne ≤ es) → ∀ c ∈ gases, c ∈ emis.cols) := by
  have hcols : ∀ {t : Frame F} {u : Unit}, hasCols t gases = .ok u → ∀ c ∈ gases, c ∈ t.cols := by
    intro t u ht c hcg
    unfold hasCols at ht
    split at ht
    · rename_i hh
      rw [List.all_eq_true] at hh
      simpa using hh c hcg
    · cases ht
  have h0 := h
  unfold precalcConc at h
  rw [bind_eq_ok] at h
  obtain ⟨_, hcol, h⟩ := h
  rw [hrun, bind_ok, hc.nystart, bind_ok, hc.nyend, bind_ok, hc.emstart, bind_ok] at h
  obtain ⟨i, j, hi, hins, hj⟩ := hc.concIdx
  have hne := hc.nonempty
  by_cases hle : r = true ∨ ne ≤ es
  · refine ⟨?_, hcols hcol, fun x => absurd hle x⟩
    rw [if_pos hle, ilocYears_of hi (by omega) hins (by omega), Except.ok.injEq] at h
    rw [← h, show min (ne + 1) j = ne + 1 by omega]
    apply List.map_congr_left
    intro y _
    simp only [preSeries, if_pos hle]
  · have hr : r = false := by
      cases r with
      | true => exact absurd (Or.inl rfl) hle
      | false => rfl
    subst hr
    have ho := hc.order hrun
    have hlt : es < ne := by
      by_contra hh
      exact hle (Or.inr (by omega))
    refine ⟨?_, hcols hcol, fun _ => ?_⟩
    · rw [precalcConc_emission h0 hrun ⟨hc.nystart, hc.nyend, hc.emstart, ⟨i, j, hi, hins, by omega⟩,
        hc.emisIdx, ho, hne⟩ (by omega)]
      apply List.map_congr_left
      intro y _
      simp only [preSeries, if_neg hle]
    · rw [if_neg hle, bind_eq_ok] at h
      obtain ⟨_, -, h⟩ := h
      rw [bind_eq_ok] at h
      obtain ⟨_, hcol2, -⟩ := h
      exact hcols hcol2

theorem series_agree {gas : String → Gas F} {concIn concIn' emis emis' : Frame F} {es y : ℤ} {c : String}
    {ns : ℤ} (hns : ns < es)
    (hc : ∀ z, ns ≤ z → z ≤ y → z < es → concIn'.cell c z = concIn.cell c z)
    (he : ∀ z, es ≤ z → z ≤ y → emis'.cell c z = emis.cell c z) :
    ∀ (n : ℕ) (z : ℤ), ns ≤ z → z ≤ y → (z - ns).toNat = n →
      series gas concIn' emis' es c z = series gas concIn emis es c z := by
  intro n
  induction n with
  | zero =>
    intro z h1 h2 h3
    unfold series
    rw [if_pos (by omega), if_pos (by omega), hc z h1 h2 (by omega)]
  | succ n ih =>
    intro z h1 h2 h3
    by_cases hz : z < es
    · unfold series
      rw [if_pos hz, if_pos hz, hc z h1 h2 hz]
    · rw [series_step gas concIn' emis' es c (by omega), series_step gas concIn emis es c (by omega),
        he z (by omega) h2, ih (z - 1) (by omega) (by omega) (by omega)]

/-- The same pre-computation without forcing perturbations. -/
theorem precalculate_pert {gas : Dict (Gas F)} {concIn emis : Frame F} {pam : Dict (PyVal F)}
    {pert : Option (List (PertRow F))} {years : List ℤ} {cl br : Dict Int} {p : Precalc F}
    (h : precalculate gas concIn emis pam pert years cl br = .ok p) :
    ∃ t, precalculate gas concIn emis pam none years cl br = .ok { p with erf := t } ∧
      addForcingPertVanilla (pert.getD []) t = .ok p.erf ∧
      p.spicy = gas.keys.filter (fun g => g ∉ t.cols) := by
  unfold precalculate at h
  simp only [bind_eq_ok] at h
  obtain ⟨gases, hg, conc, hconc, erf0, herf, so3, hso3, strat, hstrat, rows, hadd, erf, hpert, hp⟩ := h
  rw [pure_ok, Except.ok.injEq] at hp
  subst hp
  refine ⟨_, ?_, hpert, rfl⟩
  unfold precalculate
  simp only [hg, hconc, herf, hso3, hstrat, hadd, bind_ok, Option.getD_none, addForcingPertVanilla_nil,
    pure_ok]

/-- Two pre-computations agree up to year `y`. -/
structure PrecAgree (Y : ℤ → Prop) (p p' : Precalc F) : Prop where
  gases : p'.gases = p.gases
  cols : p'.erf.cols = p.erf.cols
  spicy : p'.spicy = p.spicy
  conc : ∀ c ∈ p.gases, ∀ z, Y z → (p'.conc.lookup z).map (fun r => r c) = (p.conc.lookup z).map (fun r => r c)
  erf : ∀ c ∈ p.erf.cols, ∀ z, Y z → p'.erf.val c z = p.erf.val c z

theorem PrecAgree.tot {Y : ℤ → Prop} {p p' : Precalc F} (a : PrecAgree Y p p') {z : ℤ} (hz : Y z) :
    totVanilla p' z = totVanilla p z := by
  unfold totVanilla
  rw [a.cols]
  have key : ∀ l : List String, (∀ c ∈ l, c ∈ p.erf.cols) →
      l.mapM (fun c => p'.erf.val c z) = l.mapM (fun c => p.erf.val c z) := by
    intro l
    induction l with
    | nil => intro _; rfl
    | cons c l ih =>
      intro hl
      rw [List.mapM_cons, List.mapM_cons, a.erf c (hl c List.mem_cons_self) z hz,
        ih (fun c hc => hl c (List.mem_cons_of_mem _ hc))]
  rw [key _ (fun _ hc => hc)]

theorem stratQuantities_congr {cl br : Dict Int} {gases : List String} {rows rows' : List (Row F)}
    {y0 y : ℤ} (h : ∀ c, rowAt gases rows' c y = rowAt gases rows c y)
    (h0 : ∀ c, rowAt gases rows' c y0 = rowAt gases rows c y0) :
    stratQuantities cl br gases rows' y0 y = stratQuantities cl br gases rows y0 y := by
  unfold stratQuantities
  have e1 : clTerm gases rows' y0 y = clTerm gases rows y0 y := by
    funext p; unfold clTerm; rw [h, h0]
  have e2 : brTerm gases rows' y0 y = brTerm gases rows y0 y := by
    funext p; unfold brTerm; rw [h, h0]
  rw [e1, e2]

theorem precalculate_agree {gas : Dict (Gas F)} {concIn concIn' emis emis' : Frame F}
    {pam pam' : Dict (PyVal F)} {pert pert' : Option (List (PertRow F))} {cl br : Dict Int} {p p' : Precalc F}
    {ns es ne ne' y : ℤ} {r : Bool} {ref : ℤ}
    (hrun : pamB pam "conc_run" = .ok r) (hrun' : pamB pam' "conc_run" = .ok r)
    (hend : ne' = ne ∨ y ≤ ne ∧ ne ≤ ne') (hreg : r = true ∨ (ne ≤ es ↔ ne' ≤ es))
    (hgas : gas.keys.Nodup) (hy : ns ≤ y)
    (ht : RunTables concIn emis pam ns es ne) (ht' : RunTables concIn' emis' pam' ns es ne')
    (hc : FrameUpTo (ConcCell y ref) concIn concIn') (he : FrameUpTo (EmisCell y ref) emis emis')
    (hp : ∀ z, z ≤ y → rowsOf pert' z = rowsOf pert z)
    (h : precalculate gas concIn emis pam pert (pyRange ns (ne + 1)) cl br = .ok p)
    (h' : precalculate gas concIn' emis' pam' pert' (pyRange ns (ne' + 1)) cl br = .ok p') :
    PrecAgree (· ≤ y) p p' := by
  have hne := ht.nonempty
  have hne' := ht'.nonempty
  have hregime : (r = true ∨ ne ≤ es) ↔ (r = true ∨ ne' ≤ es) := by
    rcases hreg with hreg | hreg
    · exact ⟨fun _ => Or.inl hreg, fun _ => Or.inl hreg⟩
    · rw [hreg]
  obtain ⟨t, e1, e2, e3⟩ := precalculate_pert h
  obtain ⟨t', e1', e2', e3'⟩ := precalculate_pert h'
  -- the concentrations
  have rows_of : ∀ {concIn emis : Frame F} {q : Precalc F} {u : Table F} {pam : Dict (PyVal F)} {ne : ℤ},
      pamB pam "conc_run" = .ok r → RunTables concIn emis pam ns es ne →
      precalculate gas concIn emis pam none (pyRange ns (ne + 1)) cl br = .ok { q with erf := u } →
      q.conc = (pyRange ns (ne + 1)).map (fun y => (y, fun c => preSeries gas concIn emis r es ne c y)) ∧
      (∀ c ∈ q.gases, c ∈ concIn.cols) ∧ (¬ (r = true ∨ ne ≤ es) → ∀ c ∈ q.gases, c ∈ emis.cols) ∧
      vanillaGases gas = .ok q.gases := by
    intro concIn emis q u pam ne hrun hq e
    unfold precalculate at e
    simp only [bind_eq_ok] at e
    obtain ⟨gases, hg, conc, hconc, erf0, herf, so3, hso3, strat, hstrat, rows, hadd, erf, hpert, hpp⟩ := e
    rw [pure_ok, Except.ok.injEq] at hpp
    have hgq : q.gases = gases := (congrArg Precalc.gases hpp).symm
    have hcq : q.conc = conc := (congrArg Precalc.conc hpp).symm
    rw [hgq, hcq]
    obtain ⟨x1, x2, x3⟩ := precalcConc_rows hconc hrun hq
    exact ⟨x1, x2, x3, hg⟩
  obtain ⟨c1, c2, c3, c4⟩ := rows_of hrun ht e1
  obtain ⟨c1', c2', c3', c4'⟩ := rows_of hrun' ht' e1'
  have hg : p'.gases = p.gases := by
    rw [c4, Except.ok.injEq] at c4'; exact c4'.symm
  have hpre : ∀ c ∈ p.gases, ∀ z, ns ≤ z → z ≤ y → z ≤ ne →
      preSeries gas concIn' emis' r es ne' c z = preSeries gas concIn emis r es ne c z := by
    intro c hcg z h1 h2 h3
    obtain ⟨i, j, hi, hi1, hi2⟩ := ht.concIdx
    obtain ⟨k, l, hk, hk1, hk2⟩ := ht.emisIdx
    unfold preSeries
    by_cases hle : r = true ∨ ne ≤ es
    · rw [if_pos hle, if_pos (hregime.1 hle)]
      exact hc.cell c (c2 c hcg) z (by rw [hi, mem_pyRange]; omega) (Or.inl h2)
    · rw [if_neg hle, if_neg (fun h => hle (hregime.2 h))]
      have hr : r = false := by
        cases r with
        | true => exact absurd (Or.inl rfl) hle
        | false => rfl
      subst hr
      refine series_agree (ht.order hrun) (y := min y ne) ?_ ?_ _ z h1 (by omega) rfl
      · intro w w1 w2 w3
        exact hc.cell c (c2 c hcg) w (by rw [hi, mem_pyRange]; omega) (Or.inl (by omega))
      · intro w w1 w2
        exact he.cell c (c3 hle c hcg) w (by rw [hk, mem_pyRange]; omega) (Or.inl (by omega))
  have hlook : ∀ c ∈ p.gases, ∀ z, z ≤ y →
      (p'.conc.lookup z).map (fun r => r c) = (p.conc.lookup z).map (fun r => r c) := by
    intro c hcg z hz
    rw [c1, c1', lookup_map_pyRange (fun y c => preSeries gas concIn' emis' r es ne' c y),
      lookup_map_pyRange (fun y c => preSeries gas concIn emis r es ne c y)]
    by_cases hb : ns ≤ z ∧ z < ne + 1
    · rw [if_pos hb, if_pos (by omega)]
      simp only [Option.map_some, Option.some.injEq]
      exact hpre c hcg z hb.1 hz (by omega)
    · rw [if_neg hb, if_neg (by omega)]
  have hrow : ∀ z, z ≤ y → ∀ c, rowAt p.gases p'.conc c z = rowAt p.gases p.conc c z := by
    intro z hz c
    unfold rowAt
    by_cases hcg : c ∈ p.gases
    · rw [if_pos hcg, if_pos hcg]
      have := hlook c hcg z hz
      cases hl : p.conc.lookup z <;> cases hl' : p'.conc.lookup z <;> rw [hl, hl'] at this <;>
        simp only [Option.map_some, Option.map_none, Option.some.injEq, reduceCtorEq] at this ⊢
      rw [this]
    · rw [if_neg hcg, if_neg hcg]
  have hyears : ∀ {q : Precalc F} {concIn emis : Frame F} {ne : ℤ}, q.conc = (pyRange ns (ne + 1)).map
      (fun y => (y, fun c => preSeries gas concIn emis r es ne c y)) → q.conc.map Prod.fst = pyRange ns (ne + 1) := by
    intro q cc ee ne e
    rw [e, List.map_map]
    have : (Prod.fst ∘ fun y => (y, fun c => preSeries gas cc ee r es ne c y)) = id := rfl
    rw [this, List.map_id]
  obtain ⟨so3, late, _, _, f3, f4, f5, f6⟩ := precalculate_spec (by omega) e1 (hyears c1)
  obtain ⟨so3', late', _, _, f3', f4', f5', f6'⟩ := precalculate_spec (by omega) e1' (hyears c1')
  simp only at f4 f4' f5 f5' f6 f6'
  rw [f3, Option.some.injEq] at f3'
  subst f3'
  have hcols : t'.cols = t.cols := by rw [f5, f5', hg]
  -- the forcing table without perturbations
  have hval : ∀ c ∈ t.cols, ∀ z, z ≤ y → ns ≤ z → z ≤ ne → t'.val c z = t.val c z := by
    intro c hct z h1 h2 h3
    rw [f6 c z h2 (by omega), f6' c z h2 (by omega)]
    by_cases hs : c = "STRAT_O3"
    · rw [if_pos hs, if_pos hs]
      by_cases h4 : z < ns + 3
      · rw [if_pos h4, if_pos h4]
      · rw [if_neg h4, if_neg h4]
        have hlen : (z - (ns + 3)).toNat < (pyRange ns (ne + 1 - 3)).length := by
          rw [pyRange_length]; omega
        have hlen' : (z - (ns + 3)).toNat < (pyRange ns (ne' + 1 - 3)).length := by
          rw [pyRange_length]; omega
        have g1 := Verif.Props.mapM_getD f4 hlen (0.0, 0.0)
        have g2 := Verif.Props.mapM_getD f4' hlen' (0.0, 0.0)
        have hz : ∀ {ne : ℤ} (hlen : (z - (ns + 3)).toNat < (pyRange ns (ne + 1 - 3)).length),
            (pyRange ns (ne + 1 - 3))[(z - (ns + 3)).toNat] = z - 3 := by
          intro ne hlen
          have hl' : (z - (ns + 3)).toNat < (ne + 1 - 3 - ns).toNat := by rwa [pyRange_length] at hlen
          have : (pyRange ns (ne + 1 - 3))[(z - (ns + 3)).toNat]? = some (z - 3) := by
            simp only [pyRange, List.getElem?_map, List.getElem?_range hl', Option.map_some,
              Option.some.injEq]
            omega
          rw [List.getElem?_eq_getElem hlen, Option.some.injEq] at this
          exact this
        rw [hz hlen] at g1
        rw [hz hlen'] at g2
        rw [hg, stratQuantities_congr (hrow _ (by omega)) (hrow _ hy), g1, Except.ok.injEq] at g2
        rw [g2]
    · rw [if_neg hs, if_neg hs]
      have hcg : c ∈ p.gases := by
        rw [f5] at hct
        split at hct
        · exact hct
        · rcases List.mem_append.1 hct with x | x
          · exact x
          · exact absurd (List.mem_singleton.1 x) hs
      have hrv : ∀ w, w ≤ y → ns ≤ w → w ≤ ne → rowVal p'.conc c w = rowVal p.conc c w := by
        intro w w1 w2 w3
        unfold rowVal
        rw [c1, c1', lookup_map_pyRange (fun y c => preSeries gas concIn' emis' r es ne' c y),
          lookup_map_pyRange (fun y c => preSeries gas concIn emis r es ne c y),
          if_pos ⟨w2, by omega⟩, if_pos ⟨w2, by omega⟩]
        exact hpre c hcg w w2 w1 w3
      rw [hrv z h1 h2 h3, hrv ns hy (le_refl _) hne]
  have hout : ∀ {q : Precalc F} {u : Table F} {concIn emis : Frame F} {pam : Dict (PyVal F)} {ne : ℤ},
      precalculate gas concIn emis pam none (pyRange ns (ne + 1)) cl br = .ok { q with erf := u } →
      q.conc.map Prod.fst = pyRange ns (ne + 1) →
      ∀ c z, ¬ (ns ≤ z ∧ z ≤ ne) → u.val c z = none := by
    intro q u concIn emis pam ne e hq c z hz
    unfold precalculate at e
    simp only [bind_eq_ok] at e
    obtain ⟨gases, hg, conc, hconc, erf0, herf, so3, hso3, strat, hstrat, rows, hadd, erf, hpert, hpp⟩ := e
    rw [pure_ok, Except.ok.injEq] at hpp
    simp only [Option.getD_none, addForcingPertVanilla_nil, Except.ok.injEq] at hpert
    have hu : u = erf := (congrArg Precalc.erf hpp).symm
    have hcq : q.conc = conc := (congrArg Precalc.conc hpp).symm
    rw [hu, ← hpert]
    simp only [rowsTable]
    have hlab : rows.map Prod.fst = pyRange ns (ne + 1) := by
      unfold addColumn at hadd
      split at hadd
      · rename_i hlen
        rw [Except.ok.injEq] at hadd
        subst hadd
        have h1 : erf0.map Prod.fst = pyRange ns (ne + 1) := by
          rw [← hq, hcq]
          unfold precalcErf at herf
          split at herf
          · cases herf
          · rw [Except.ok.injEq] at herf
            subst herf
            rw [List.map_map]
            rfl
        rw [← h1]
        clear herf h1 hstrat hpert
        induction erf0 generalizing strat with
        | nil => rfl
        | cons a l ih =>
          cases strat with
          | nil => simp at hlen
          | cons b m =>
            rw [List.zipWith_cons_cons, List.map_cons, List.map_cons, ih m (by simpa using hlen)]
      · cases hadd
    have hnone : rows.lookup z = none := by
      rw [List.lookup_eq_none_iff]
      intro a ha
      have : a.1 ∈ rows.map Prod.fst := List.mem_map_of_mem ha
      rw [hlab, mem_pyRange] at this
      have : a.1 ≠ z := by omega
      simpa using fun e => this e.symm
    rw [hnone]
    rfl
  have hval' : ∀ c ∈ t.cols, ∀ z, z ≤ y → t'.val c z = t.val c z := by
    intro c hct z hz
    by_cases hb : ns ≤ z ∧ z ≤ ne
    · exact hval c hct z hz hb.1 hb.2
    · rw [hout e1 (hyears c1) c z hb, hout e1' (hyears c1') c z (by omega)]
  have hgn : p.gases.Nodup := by
    unfold vanillaGases at c4
    split at c4
    · rw [Except.ok.injEq] at c4
      rw [← c4]
      exact List.Nodup.sublist (List.Sublist.map _ List.filter_sublist) hgas
    · cases c4
  have hnd : t.cols.Nodup := by
    rw [f5]
    split
    · exact hgn
    · rename_i hh
      rw [List.nodup_append]
      refine ⟨hgn, by simp, ?_⟩
      intro a ha b hb hab
      rw [List.mem_singleton.1 hb] at hab
      exact hh (hab ▸ ha)
  obtain ⟨v1, v2⟩ := vanilla_ok hnd e2
  obtain ⟨v1', v2'⟩ := vanilla_ok (hcols ▸ hnd) e2'
  refine ⟨hg, by rw [v1, v1', hcols], by rw [e3, e3', hcols], hlook, ?_⟩
  intro c hcc z hz
  rw [v1] at hcc
  rw [v2 c hcc z, v2' c (by rw [hcols]; exact hcc) z, hval' c hcc z hz]
  have hf : ∀ rows : Option (List (PertRow F)),
      (rows.getD []).filter (fun r => r.component = c ∧ r.year = z) =
        (rowsOf rows z).filter (fun r => r.component = c) := by
    intro rows
    unfold rowsOf
    rw [List.filter_filter]
    apply List.filter_congr
    intro r _
    simp
  rw [hf, hf, hp z hz]

end
end Verif.Model.Handler
