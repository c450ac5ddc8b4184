import Verif.Spec.Complete
import Verif.Lemmas.Rerun

/-! # Construction from complete inputs succeeds -/

namespace Verif.Props
open Verif.Py Verif.Py.Dict Verif.Model Verif.Model.Handler Verif.Model.Driver Verif.Spec

theorem foldlM_ok {α β : Type} {f : β → α → Except PyErr β} (Inv : β → Prop) :
    ∀ (l : List α) (b : β), (∀ b a, a ∈ l → Inv b → ∃ b', f b a = .ok b' ∧ Inv b') → Inv b →
      ∃ c, l.foldlM f b = .ok c ∧ Inv c
  | [], b, _, hb => ⟨b, rfl, hb⟩
  | a :: l, b, h, hb => by
    obtain ⟨b', h1, h2⟩ := h b a List.mem_cons_self hb
    obtain ⟨c, h3, h4⟩ := foldlM_ok Inv l b' (fun b a ha => h b a (List.mem_cons_of_mem _ ha)) h2
    exact ⟨c, foldlM_cons_ok.2 ⟨b', h1, h3⟩, h4⟩

theorem mapM_exists {α β : Type} {f : α → Except PyErr β} :
    ∀ (l : List α), (∀ a ∈ l, ∃ b, f a = .ok b) → ∃ r, l.mapM f = .ok r ∧ r.length = l.length
  | [], _ => ⟨[], rfl, rfl⟩
  | a :: l, h => by
    obtain ⟨b, hb⟩ := h a List.mem_cons_self
    obtain ⟨r, hr, hl⟩ := mapM_exists l (fun a ha => h a (List.mem_cons_of_mem _ ha))
    exact ⟨b :: r, by rw [List.mapM_cons, hb, bind_ok, hr, bind_ok]; rfl, by simp [hl]⟩

section
variable {F κ τ : Type} [Add F] [Sub F] [Mul F] [Div F] [Neg F] [OfScientific F] [LT F] [DecidableLT F]
  [MathFn F]

omit [Add F] [Sub F] [Mul F] [Div F] [Neg F] [OfScientific F] [LT F] [DecidableLT F] [MathFn F] in
theorem at_ok {t : Frame F} {c : String} {y : ℤ} (h1 : c ∈ t.cols) (h2 : y ∈ t.idx) :
    t.at' c y = .ok (t.cell c y) := frame_at'_eq_ok.2 ⟨h1, h2, rfl⟩

omit [Add F] [Sub F] [Mul F] [Div F] [Neg F] [OfScientific F] [LT F] [DecidableLT F] [MathFn F] in
theorem _root_.Verif.Spec.CoversYears.mem {t : Frame F} {a b y : ℤ} (h : CoversYears t a b) (h1 : a ≤ y) (h2 : y ≤ b) :
    y ∈ t.idx := by
  obtain ⟨i, j, e, h3, h4⟩ := h
  rw [e, mem_pyRange]
  omega

/-! ## The pre-computed gases -/

omit [Add F] [Sub F] [Mul F] [Div F] [Neg F] [OfScientific F] [LT F] [DecidableLT F] [MathFn F] in
theorem vanilla_mem {gas : Dict (Gas F)} {vs : List String} (hn : gas.keys.Nodup) (e : vanillaGases gas = .ok vs)
    (k : String) : k ∈ vs ↔ HasConc gas k ∧ k ∉ ["CO2", "CH4", "N2O"] := by
  unfold vanillaGases at e
  split at e
  · rw [Except.ok.injEq] at e
    rw [← e, List.mem_map]
    constructor
    · rintro ⟨q, hq, rfl⟩
      obtain ⟨hq2, hq3⟩ := List.mem_filter.1 hq
      simp only [decide_eq_true_eq] at hq3
      exact ⟨⟨q.2, Dict.get?_of_mem hn hq2, hq3.1⟩, hq3.2⟩
    · rintro ⟨⟨x, hx, h1⟩, h2⟩
      exact ⟨(k, x), List.mem_filter.2 ⟨Dict.mem_of_get? hx, by simp only [decide_eq_true_eq]; exact ⟨h1, h2⟩⟩, rfl⟩
  · cases e

theorem _root_.Verif.Spec.CompleteGases.vanilla {gas : Dict (Gas F)} (h : CompleteGases gas) : ∃ vs, vanillaGases gas = .ok vs := by
  have hk : ∀ t ∈ ["CO2", "CH4", "N2O"], gas.has t = true := by
    intro t ht
    obtain ⟨g, hg, -⟩ := h.main t ht
    exact (has_iff _ _).2 ((get?_isSome_iff _ _).1 ⟨g, hg⟩)
  unfold vanillaGases
  rw [if_pos ⟨hk _ (by simp), hk _ (by simp), hk _ (by simp)⟩]
  exact ⟨_, rfl⟩

omit [Add F] [Sub F] [Mul F] [Div F] [Neg F] [OfScientific F] [LT F] [DecidableLT F] [MathFn F] in
theorem hasCols_ok {t : Frame F} {cs : List String} (h : ∀ c ∈ cs, c ∈ t.cols) : hasCols t cs = .ok () := by
  unfold hasCols
  rw [if_pos]
  rw [List.all_eq_true]
  intro c hc
  simpa using h c hc

theorem pamI_set {p : Dict (PyVal F)} {b : Bool} {k : String} (hk : k ≠ "conc_run") :
    pamI (Dict.set p "conc_run" (.bool b)) k = pamI p k := by
  unfold pamI Dict.getE
  rw [Dict.get?_set, if_neg (fun e => hk e.symm)]

theorem pamB_set {p : Dict (PyVal F)} {b : Bool} :
    pamB (Dict.set p "conc_run" (.bool b)) "conc_run" = .ok b := by
  unfold pamB Dict.getE
  rw [Dict.get?_set, if_pos rfl]
  cases b <;> rfl

theorem precalcConc_ok {gas : Dict (Gas F)} {concIn emis : Frame F} {pam : Dict (PyVal F)} {gases : List String}
    {ns es ne : ℤ} {r : Bool} (hrun : pamB pam "conc_run" = .ok r) (ht : RunTables concIn emis pam ns es ne)
    (hc : ∀ c ∈ gases, c ∈ concIn.cols) (he : r = false → ∀ c ∈ gases, c ∈ emis.cols) :
    ∃ rows, precalcConc gas concIn emis pam gases = .ok rows := by
  unfold precalcConc
  rw [hasCols_ok hc, bind_ok, hrun, bind_ok, ht.nystart, bind_ok, ht.nyend, bind_ok, ht.emstart, bind_ok]
  obtain ⟨i, j, hi, hins, hj⟩ := ht.concIdx
  have hne := ht.nonempty
  by_cases hle : r = true ∨ ne ≤ es
  · rw [if_pos hle, ilocYears_of hi (by omega) hins (by omega)]
    exact ⟨_, rfl⟩
  · have hr : r = false := by
      cases r with
      | true => exact absurd (Or.inl rfl) hle
      | false => rfl
    subst hr
    have ho := ht.order hrun
    have hlt : es < ne := by
      by_contra hh
      exact hle (Or.inr (by omega))
    obtain ⟨k, l, hk, hkes, hl⟩ := ht.emisIdx
    rw [if_neg hle, ilocYears_of hi (by omega) hins (by omega), bind_ok, hasCols_ok (he rfl), bind_ok,
      ilocYears_of hk (by omega) hkes (by omega), bind_ok]
    unfold vanillaAppend
    rw [show min es j = (es - 1) + 1 by omega, pyRange_succ_right (by omega), List.map_append, List.map_cons,
      List.map_nil, List.getLast?_concat]
    cases (pyRange es (min (ne + 1) l)).map (fun y => (y, fun c => emis.cell c y)) with
    | nil => exact ⟨_, rfl⟩
    | cons a as => exact ⟨_, rfl⟩

/-! ## Stratospheric ozone -/

theorem clBrLoop_ok {P : String → Prop} : ∀ (l : List String) (c b : Dict ℤ),
    (∀ t ∈ l, ∃ h, PubUtils.halogens t = .ok h ∧ (h ≠ (none, none) → P t)) →
    (∀ k ∈ c.keys, P k) → (∀ k ∈ b.keys, P k) →
    ∃ r, PubUtils.clBrLoop c b l = .ok r ∧ (∀ k ∈ r.1.keys, P k) ∧ (∀ k ∈ r.2.keys, P k)
  | [], c, b, _, hc, hb => ⟨(c, b), rfl, hc, hb⟩
  | t :: l, c, b, h, hc, hb => by
    obtain ⟨x, hx, hp⟩ := h t List.mem_cons_self
    have key : ∀ (d : Dict ℤ) (v : Option ℤ), (v ≠ none → P t) → (∀ k ∈ d.keys, P k) →
        ∀ k ∈ (PubUtils.setOpt d t v).keys, P k := by
      intro d v hv hd k hk
      cases v with
      | none => exact hd k hk
      | some v =>
        rcases (mem_keys_set _ _ _ _).1 hk with rfl | hk
        · exact hv (by simp)
        · exact hd k hk
    obtain ⟨r, hr, h1, h2⟩ := clBrLoop_ok l (PubUtils.setOpt c t x.1) (PubUtils.setOpt b t x.2)
      (fun t ht => h t (List.mem_cons_of_mem _ ht))
      (key c x.1 (fun hv => hp (fun e => hv (by rw [e]))) hc)
      (key b x.2 (fun hv => hp (fun e => hv (by rw [e]))) hb)
    exact ⟨r, by rw [PubUtils.clBrLoop, hx, bind_ok]; exact hr, h1, h2⟩

theorem _root_.Verif.Spec.CompleteGases.halogens {gas : Dict (Gas F)} (h : CompleteGases gas) {vs : List String}
    (hv : vanillaGases gas = .ok vs) : ∃ clbr, PubUtils.makeClAndBr gas.keys = .ok clbr ∧
      (∀ k ∈ clbr.1.keys, k ∈ vs) ∧ (∀ k ∈ clbr.2.keys, k ∈ vs) := by
  unfold PubUtils.makeClAndBr
  refine clBrLoop_ok (P := fun k => k ∈ vs) _ _ _ ?_ (by simp [keys]) (by simp [keys])
  intro t ht
  obtain ⟨x, hx, hc⟩ := h.names t ht
  refine ⟨x, hx, fun hne => (vanilla_mem h.once hv t).2 ⟨hc hne, ?_⟩⟩
  intro hm
  simp only [List.mem_cons, List.not_mem_nil, or_false] at hm
  apply hne
  rcases hm with rfl | rfl | rfl
  · have : PubUtils.halogens "CO2" = .ok (none, none) := by decide +kernel
    rw [this] at hx; exact (Except.ok.inj hx).symm
  · have : PubUtils.halogens "CH4" = .ok (none, none) := by decide +kernel
    rw [this] at hx; exact (Except.ok.inj hx).symm
  · have : PubUtils.halogens "N2O" = .ok (none, none) := by decide +kernel
    rw [this] at hx; exact (Except.ok.inj hx).symm

omit [Add F] [Sub F] [Mul F] [Div F] [Neg F] [OfScientific F] [LT F] [DecidableLT F] [MathFn F] in
theorem rowAt_ok {gases : List String} {f : String → ℤ → F} {a b y : ℤ} {c : String} (hc : c ∈ gases)
    (h1 : a ≤ y) (h2 : y < b) :
    ∃ v, rowAt gases ((pyRange a b).map (fun y => (y, fun c => f c y))) c y = .ok v := by
  unfold rowAt
  rw [if_pos hc, lookup_map_pyRange (fun y c => f c y), if_pos ⟨h1, h2⟩]
  exact ⟨_, rfl⟩

theorem stratO3Series_ok {cl br : Dict ℤ} {gases : List String} {f : String → ℤ → F} {ns ne : ℤ} {sarf : F}
    (hle : ns ≤ ne) (hcl : ∀ k ∈ cl.keys, k ∈ gases) (hbr : ∀ k ∈ br.keys, k ∈ gases) :
    ∃ s, stratO3Series cl br gases ((pyRange ns (ne + 1)).map (fun y => (y, fun c => f c y)))
      (pyRange ns (ne + 1)) sarf = .ok s ∧ s.length = (pyRange ns (ne + 1)).length := by
  have hq : ∀ y, ns ≤ y → y < ne + 1 → ∃ q, stratQuantities cl br gases
      ((pyRange ns (ne + 1)).map (fun y => (y, fun c => f c y))) ns y = .ok q := by
    intro y h1 h2
    unfold stratQuantities
    obtain ⟨a, ha, -⟩ := mapM_exists (f := clTerm gases
      ((pyRange ns (ne + 1)).map (fun y => (y, fun c => f c y))) ns y) cl (by
        intro p hp
        have hg := hcl p.1 (List.mem_map_of_mem hp)
        obtain ⟨v, hv⟩ := rowAt_ok (f := f) hg h1 h2
        obtain ⟨w, hw⟩ := rowAt_ok (f := f) (y := ns) (b := ne + 1) hg (le_refl _) (by omega)
        unfold clTerm
        rw [hv, bind_ok, hw, bind_ok]
        exact ⟨_, rfl⟩)
    obtain ⟨b, hb, -⟩ := mapM_exists (f := brTerm gases
      ((pyRange ns (ne + 1)).map (fun y => (y, fun c => f c y))) ns y) br (by
        intro p hp
        have hg := hbr p.1 (List.mem_map_of_mem hp)
        obtain ⟨v, hv⟩ := rowAt_ok (f := f) hg h1 h2
        obtain ⟨w, hw⟩ := rowAt_ok (f := f) (y := ns) (b := ne + 1) hg (le_refl _) (by omega)
        unfold brTerm
        rw [hv, bind_ok, hw, bind_ok]
        exact ⟨_, rfl⟩)
    rw [ha, bind_ok, hb, bind_ok]
    exact ⟨_, rfl⟩
  generalize hrows : (pyRange ns (ne + 1)).map (fun y => (y, fun c => f c y)) = rows at hq ⊢
  clear hrows
  unfold stratO3Series
  rw [pyRange_cons (show ns < ne + 1 by omega)]
  simp only
  rw [← pyRange_cons (show ns < ne + 1 by omega)]
  obtain ⟨late, hl, hlen⟩ := mapM_exists (f := stratQuantities cl br gases rows ns)
    ((pyRange ns (ne + 1)).take ((pyRange ns (ne + 1)).length - 3)) (by
      intro y hy
      have := mem_pyRange.1 (List.mem_of_mem_take hy)
      exact hq y this.1 this.2)
  rw [hl, bind_ok]
  refine ⟨_, rfl, ?_⟩
  rw [List.length_map, List.length_append, List.length_replicate, hlen, List.length_take]
  omega

omit [Add F] [Sub F] [Mul F] [Div F] [Neg F] [OfScientific F] [LT F] [DecidableLT F] [MathFn F] in
theorem addColumn_ok {rows : List (Row F)} {name : String} {col : List F} (h : rows.length = col.length) :
    ∃ r, addColumn rows name col = .ok r ∧ r.map Prod.fst = rows.map Prod.fst := by
  unfold addColumn
  rw [if_pos h]
  refine ⟨_, rfl, ?_⟩
  induction rows generalizing col with
  | nil => rfl
  | cons a rows ih =>
    cases col with
    | nil => cases h
    | cons v col =>
      simp only [List.zipWith_cons_cons, List.map_cons, List.cons.injEq, true_and]
      exact ih (by simpa using h)

/-! ## Forcing perturbations of the pre-computed gases -/

omit [Sub F] [Mul F] [Div F] [Neg F] [OfScientific F] [LT F] [DecidableLT F] [MathFn F] in
theorem addForcingPertVanilla_ok' {rows : List (PertRow F)} {t : Table F} {Y : ℤ → Prop}
    (ht : ∀ c ∈ t.cols, ∀ y, Y y → t.HasCell c y) (hr : ∀ r ∈ rows, Y r.year) :
    ∃ t', addForcingPertVanilla rows t = .ok t' ∧ t'.cols = t.cols ∧ ∀ c ∈ t.cols, ∀ y, Y y → t'.HasCell c y := by
  unfold addForcingPertVanilla
  obtain ⟨t', h1, h2⟩ := foldlM_ok (f := addForcingPertVanillaGas rows)
    (fun u => u.cols = t.cols ∧ ∀ c ∈ t.cols, ∀ y, Y y → u.HasCell c y)
    (t.cols.filter (fun c => c ∈ rows.map PertRow.component)) t (by
      intro u gas hg ⟨hu1, hu2⟩
      have hgc := (List.mem_filter.1 hg).1
      have hex : ∃ u', addForcingPertVanillaGas rows u gas = .ok u' := by
        unfold addForcingPertVanillaGas
        obtain ⟨new, hnew, -⟩ := mapM_exists (f := fun r : PertRow F => do
            let old ← u.at' gas r.year
            return (r.year, old + r.value)) (rows.filter (fun r => r.component = gas)) (by
          intro r hr'
          obtain ⟨v, hv⟩ := (at'_isOk _ _ _).2 (hu2 gas hgc r.year (hr r (List.mem_filter.1 hr').1))
          refine ⟨(r.year, v + r.value), ?_⟩
          rw [hv, bind_ok]; rfl)
        simp only
        rw [hnew, bind_ok]
        exact ⟨_, rfl⟩
      obtain ⟨u', hu'⟩ := hex
      refine ⟨u', hu', ?_⟩
      obtain ⟨hc, hv⟩ := vanillaGas_ok hu'
      refine ⟨hc.trans hu1, ?_⟩
      intro c hc' y hy
      have hcell := hu2 c hc' y hy
      refine ⟨by rw [hc]; exact hcell.1, ?_⟩
      rw [hv]
      split
      · rename_i e
        split
        · exact hcell.2
        · rw [Option.isSome_map, ← e]; exact hcell.2
      · exact hcell.2) ⟨rfl, ht⟩
  exact ⟨t', h1, h2⟩

theorem precalculate_ok {gas : Dict (Gas F)} {concIn emis : Frame F} {pam : Dict (PyVal F)}
    {pert : Option (List (PertRow F))} {ns es ne : ℤ} {r : Bool} (hg : CompleteGases gas)
    (hrun : pamB pam "conc_run" = .ok r) (ht : RunTables concIn emis pam ns es ne)
    (hc : ∀ t, HasConc gas t → t ∈ concIn.cols) (he : r = false → ∀ t, HasConc gas t → t ≠ "CO2" → t ∈ emis.cols)
    (hp : ∀ rows, pert = some rows → ∀ x ∈ rows, ns ≤ x.year ∧ x.year ≤ ne) :
    ∃ clbr p, PubUtils.makeClAndBr gas.keys = .ok clbr ∧
      precalculate gas concIn emis pam pert (pyRange ns (ne + 1)) clbr.1 clbr.2 = .ok p ∧
      ∀ y, ns ≤ y → y ≤ ne → ∃ v, totVanilla p y = .ok v := by
  obtain ⟨vs, hvs⟩ := hg.vanilla
  obtain ⟨clbr, hcb, h1, h2⟩ := hg.halogens hvs
  have hmem := vanilla_mem hg.once hvs
  obtain ⟨rows, hrows⟩ := precalcConc_ok (gas := gas) (gases := vs) hrun ht
    (fun c hc' => hc c ((hmem c).1 hc').1)
    (fun hr c hc' => he hr c ((hmem c).1 hc').1 (fun e => ((hmem c).1 hc').2 (by simp [e])))
  obtain ⟨hrow, -, -⟩ := precalcConc_rows hrows hrun ht
  have hne := ht.nonempty
  obtain ⟨erf, herf, hfst⟩ : ∃ erf, precalcErf (gasOr gas) rows = .ok erf ∧
      erf.map Prod.fst = pyRange ns (ne + 1) := by
    rw [hrow, pyRange_cons (by omega), List.map_cons]
    refine ⟨_, rfl, ?_⟩
    rw [List.map_map, List.map_cons, List.map_map]
    simp only [Function.comp_def, List.map_id']
  obtain ⟨so3, hso3⟩ := (get?_isSome_iff _ _).2 hg.stratO3
  obtain ⟨strat, hs, hlen⟩ := stratO3Series_ok (gases := vs) (cl := clbr.1) (br := clbr.2) (sarf := so3.sarf)
    (f := fun c y => preSeries gas concIn emis r es ne c y) hne h1 h2
  have hle : erf.length = strat.length := by
    rw [hlen, ← hfst, List.length_map]
  obtain ⟨col, hcol, hcf⟩ := addColumn_ok (name := "STRAT_O3") hle
  have hcell : ∀ (cols : List String), ∀ c ∈ (rowsTable cols col).cols, ∀ y, (ns ≤ y ∧ y ≤ ne) →
      (rowsTable cols col).HasCell c y := by
    intro cols c hc' y hy
    refine ⟨hc', ?_⟩
    unfold rowsTable
    simp only [Option.isSome_map]
    have : y ∈ col.map Prod.fst := by rw [hcf, hfst, mem_pyRange]; omega
    obtain ⟨q, hq1, hq2⟩ := List.mem_map.1 this
    cases hl : col.lookup y with
    | some _ => rfl
    | none =>
      rw [List.lookup_eq_none_iff] at hl
      exact absurd (hl q hq1) (by simp [hq2])
  obtain ⟨fin, hfin, hfc, hfh⟩ := addForcingPertVanilla_ok' (rows := pert.getD [])
    (t := rowsTable (if "STRAT_O3" ∈ vs then vs else vs ++ ["STRAT_O3"]) col) (hcell _) (by
      intro x hx
      cases hpe : pert with
      | none => rw [hpe] at hx; cases hx
      | some l => rw [hpe] at hx; exact hp l hpe x hx)
  refine ⟨clbr, { gases := vs, conc := rows, erf := fin, spicy := gas.keys.filter (fun g => g ∉
    (if "STRAT_O3" ∈ vs then vs else vs ++ ["STRAT_O3"])) }, hcb, ?_, ?_⟩
  · unfold precalculate Dict.getE
    rw [hvs, bind_ok, hrows, bind_ok, herf, bind_ok, hso3]
    simp only [bind_ok]
    rw [hrow, hs, bind_ok, hcol, bind_ok, hfin, bind_ok]
    rfl
  · intro y y1 y2
    unfold totVanilla
    simp only
    have : ∃ l, fin.cols.mapM (fun c => fin.val c y) = some l := by
      rw [hfc]
      have key : ∀ cs : List String, (∀ c ∈ cs, (fin.val c y).isSome) → ∃ l, cs.mapM (fun c => fin.val c y) = some l := by
        intro cs
        induction cs with
        | nil => exact fun _ => ⟨[], rfl⟩
        | cons c cs ih =>
          intro h
          obtain ⟨v, hv⟩ := Option.isSome_iff_exists.1 (h c List.mem_cons_self)
          obtain ⟨l, hl⟩ := ih (fun c hc => h c (List.mem_cons_of_mem _ hc))
          exact ⟨v :: l, by rw [List.mapM_cons, hv, hl]; rfl⟩
      exact key _ (fun c hc' => (hfh c hc' y ⟨y1, y2⟩).2)
    obtain ⟨l, hl⟩ := this
    rw [hl]
    exact ⟨_, rfl⟩

/-! ## Construction -/

theorem perturbedEmis_ok {i : Inputs F}
    (h : ∀ rows, i.pertEm = some rows → ∀ r ∈ rows, r.year ∈ i.emis.idx ∧
      (r.component ∈ i.emis.cols ∨ r.component = "CO2" ∧ "CO2_FF" ∈ i.emis.cols)) :
    ∃ emis, perturbedEmis i = .ok emis ∧ emis.cols = i.emis.cols ∧ emis.idx = i.emis.idx := by
  unfold perturbedEmis
  cases hp : i.pertEm with
  | none => exact ⟨_, rfl, rfl, rfl⟩
  | some rows =>
    obtain ⟨t, ht⟩ := (perturbEmissions_isOk rows i.emis.toTable).2 (by
      intro r hr
      obtain ⟨h1, h2⟩ := h rows hp r hr
      refine ⟨?_, by simp only [Frame.toTable, if_pos h1, Option.isSome_some]⟩
      unfold pertTarget
      show (if r.component = "CO2" ∧ "CO2" ∉ i.emis.cols then "CO2_FF" else r.component) ∈ i.emis.cols
      by_cases hc : r.component = "CO2" ∧ "CO2" ∉ i.emis.cols
      · rw [if_pos hc]
        rcases h2 with h2 | h2
        · rw [hc.1] at h2; exact absurd h2 hc.2
        · exact h2.2
      · rw [if_neg hc]
        rcases h2 with h2 | h2
        · exact h2
        · by_contra hh
          exact hc ⟨h2.1, fun x => hh (by rw [h2.1]; exact x)⟩)
    simp only [ht, bind_ok]
    exact ⟨_, rfl, rfl, rfl⟩

theorem _root_.Verif.Spec.CompleteTables.run {i : Inputs F} {ns es ne ref : ℤ} (h : CompleteTables i ns es ne ref)
    {pamset : Option (Dict (PyVal F))} (h1 : pamI (Factory.checkPamset pamset) "nystart" = .ok ns)
    (h2 : pamI (Factory.checkPamset pamset) "nyend" = .ok ne)
    (h3 : pamI (Factory.checkPamset pamset) "emstart" = .ok es) :
    RunTables i.concIn i.emis (Dict.set (Factory.checkPamset pamset) "conc_run" (.bool i.concRun)) ns es ne where
  nystart := by rw [pamI_set (by decide), h1]
  nyend := by rw [pamI_set (by decide), h2]
  emstart := by rw [pamI_set (by decide), h3]
  concIdx := h.concRows
  emisIdx := by
    obtain ⟨a, b, e, h4, h5⟩ := h.emisRows
    have := h.emStart; exact ⟨a, b, e, by omega, h5⟩
  nonempty := h.order
  order := by
    rw [pamB_set]
    intro e
    exact h.start (Except.ok.inj e)

theorem construct_ok {cops : CarbonOps F κ} {i : Inputs F} {pamset carb : Option (Dict (PyVal F))}
    {ns es ne ref : ℤ} {P : κ → Prop} (hg : CompleteGases i.gas) (h : CompleteTables i ns es ne ref)
    (h1 : pamI (Factory.checkPamset pamset) "nystart" = .ok ns)
    (h2 : pamI (Factory.checkPamset pamset) "nyend" = .ok ne)
    (h3 : pamI (Factory.checkPamset pamset) "emstart" = .ok es)
    (hcreate : ∃ k, cops.create (Dict.set (Factory.checkPamset pamset) "conc_run" (.bool i.concRun))
      (Dict.set (carb.getD []) "preindustrial_co2_conc" (.flt (i.concIn.cell "CO2" ns))) = .ok k ∧ P k)
    (hreset : CarbonResets cops P
      (some (Dict.set (carb.getD []) "preindustrial_co2_conc" (.flt (i.concIn.cell "CO2" ns))))) :
    ∃ h0, construct cops i pamset carb = .ok h0 ∧ P h0.carbon ∧
      ∀ y, ns ≤ y → y ≤ ne → ∃ v, totVanilla h0.prec y = .ok v := by
  obtain ⟨emis, he, hcols, hidx⟩ := perturbedEmis_ok h.pertEm
  have ht := h.run h1 h2 h3
  have ht2 : RunTables i.concIn emis (Dict.set (Factory.checkPamset pamset) "conc_run" (.bool i.concRun)) ns es ne :=
    ⟨ht.nystart, ht.nyend, ht.emstart, ht.concIdx, by rw [hidx]; exact ht.emisIdx, ht.nonempty, ht.order⟩
  obtain ⟨clbr, p, hcb, hp, htot⟩ := precalculate_ok (pert := i.pertForc) hg pamB_set ht2 h.concCols
    (by rw [hcols]; exact h.emisGas) h.pertForc
  obtain ⟨k, hk, hPk⟩ := hcreate
  obtain ⟨k', hk', hP'⟩ := hreset k hPk
  have hco2 : i.concIn.at' "CO2" ns = .ok (i.concIn.cell "CO2" ns) :=
    at_ok (h.concCols _ (hg.main _ (by simp))) (h.concRows.mem (le_refl _) h.order)
  unfold construct
  simp only [h1, h2, bind_ok, he, hcb, hp, hco2, hk]
  unfold resetArrays
  simp only [hk', bind_ok]
  exact ⟨_, rfl, hP', htot⟩

end
end Verif.Props
