import Verif.Model.Handler
import Verif.Lemmas.Except
import Verif.Lemmas.Frame

/-! # The gases computed ahead of the run -/

namespace Verif.Model.Handler
open Verif.Py Verif.Model

section
variable {F : Type} [Add F] [Sub F] [Mul F] [Div F] [Neg F] [OfScientific F] [LT F] [DecidableLT F]
  [MathFn F]

omit [Add F] [Sub F] [Mul F] [Div F] [Neg F] [OfScientific F] [LT F] [DecidableLT F] [MathFn F] in
theorem firstLabel_of {t : Frame F} {i j : ℤ} (h : t.idx = pyRange i j) (hij : i < j) :
    firstLabel t = .ok i := by
  unfold firstLabel
  rw [h, pyRange_cons hij]

omit [Add F] [Sub F] [Mul F] [Div F] [Neg F] [OfScientific F] [LT F] [DecidableLT F] [MathFn F] in
theorem ilocYears_of {t : Frame F} {i j a b : ℤ} (h : t.idx = pyRange i j) (hij : i < j)
    (ha : i ≤ a) (hb : i ≤ b) :
    ilocYears t a b = .ok ((pyRange a (min b j)).map (fun y => (y, fun c => t.cell c y))) := by
  unfold ilocYears
  rw [firstLabel_of h hij, bind_ok, pure_ok, h, pySlice_pyRange ha hb]

/-- The concentrations after `n` years of emissions starting in year `a`. -/
def vser (gas : String → Gas F) (em : String → ℤ → F) (prev : String → F) (a : ℤ) (c : String) :
    ℕ → F
  | 0 => prev c
  | n + 1 => vanillaUpdate (gas c) (em c (a + n)) (vser gas em prev a c n)

theorem vser_shift (gas : String → Gas F) (em : String → ℤ → F) (prev : String → F) (a : ℤ)
    (c : String) : ∀ n, vser gas em (fun c => vanillaUpdate (gas c) (em c a) (prev c)) (a + 1) c n =
      vser gas em prev a c (n + 1)
  | 0 => by simp [vser]
  | n + 1 => by
    rw [vser, vser_shift gas em prev a c n, vser]
    congr 2
    push_cast
    omega

theorem vanillaLoop_eq (gas : String → Gas F) (em : String → ℤ → F) (b : ℤ) :
    ∀ (n : ℕ) (a : ℤ) (prev : String → F), (b - a).toNat = n →
      vanillaLoop gas prev ((pyRange a b).map (fun y => (y, fun c => em c y))) =
        (pyRange a b).map (fun y => (y, fun c => vser gas em prev a c (y - a + 1).toNat))
  | 0, a, prev, h => by
    rw [pyRange_empty (by omega)]
    rfl
  | n + 1, a, prev, h => by
    rw [pyRange_cons (by omega), List.map_cons, List.map_cons, vanillaLoop]
    congr 1
    · simp only [Int.sub_self, Int.zero_add, Int.toNat_one, Prod.mk.injEq, true_and]
      funext c
      simp [vser]
    · rw [vanillaLoop_eq gas em b n (a + 1) _ (by omega)]
      apply List.map_congr_left
      intro y hy
      have hy := mem_pyRange.1 hy
      simp only [Prod.mk.injEq, true_and]
      funext c
      rw [vser_shift]
      congr 1
      omega

/-- Hypotheses under which the pre-computed series is what it should be: contiguous tables that cover
the years used. -/
structure Covers (concIn emis : Frame F) (pam : Dict (PyVal F)) (ns es ne : ℤ) : Prop where
  nystart : pamI pam "nystart" = .ok ns
  nyend : pamI pam "nyend" = .ok ne
  emstart : pamI pam "emstart" = .ok es
  concIdx : ∃ i j, concIn.idx = pyRange i j ∧ i ≤ ns ∧ min es (ne + 1) ≤ j
  emisIdx : ∃ k l, emis.idx = pyRange k l ∧ k ≤ es ∧ ne < l
  order : ns < es
  nonempty : ns ≤ ne

/-- The series of one gas from its tables: prescribed before `es`, iterated from then on. -/
def series (gas : String → Gas F) (concIn emis : Frame F) (es : ℤ) (c : String) (y : ℤ) : F :=
  if y < es then concIn.cell c y
  else vser gas emis.cell (fun c => concIn.cell c (es - 1)) es c (y - es + 1).toNat

theorem series_step (gas : String → Gas F) (concIn emis : Frame F) (es : ℤ) (c : String) {y : ℤ}
    (h : es ≤ y) : series gas concIn emis es c y =
      vanillaUpdate (gas c) (emis.cell c y) (series gas concIn emis es c (y - 1)) := by
  unfold series
  rw [if_neg (by omega)]
  obtain ⟨n, rfl⟩ : ∃ n : ℕ, y = es + n := ⟨(y - es).toNat, by omega⟩
  have h1 : (es + (n : ℤ) - es + 1).toNat = n + 1 := by omega
  rw [h1, vser]
  congr 1
  cases n with
  | zero =>
    rw [if_pos (by omega)]
    simp [vser]
  | succ n =>
    rw [if_neg (by omega)]
    congr 1
    omega

/-- The rows of an emission-driven run. -/
theorem precalcConc_emission {gas : Dict (Gas F)} {concIn emis : Frame F} {pam : Dict (PyVal F)}
    {gases : List String} {rows : List (Row F)} {ns es ne : ℤ}
    (h : precalcConc gas concIn emis pam gases = .ok rows)
    (hrun : pamB pam "conc_run" = .ok false) (hc : Covers concIn emis pam ns es ne)
    (hne : es ≠ ne) :
    rows = (pyRange ns (ne + 1)).map (fun y => (y, fun c => series (gasOr gas) concIn emis es c y)) := by
  obtain ⟨h1, h2, h3, ⟨i, j, hi, hins, hj⟩, ⟨k, l, hk, hkes, hl⟩, ho, hn⟩ := hc
  unfold precalcConc at h
  rw [bind_eq_ok] at h
  obtain ⟨_, -, h⟩ := h
  rw [hrun, bind_ok, h1, bind_ok, h2, bind_ok, h3, bind_ok] at h
  by_cases hle : ne ≤ es
  · rw [if_pos (Or.inr hle), ilocYears_of hi (by omega) hins (by omega), Except.ok.injEq] at h
    rw [← h, show min (ne + 1) j = ne + 1 by omega]
    apply List.map_congr_left
    intro y hy
    have hy := mem_pyRange.1 hy
    simp only [Prod.mk.injEq, true_and]
    funext c
    unfold series
    rw [if_pos (by omega)]
  · rw [if_neg (by simp only [Bool.false_eq_true, false_or]; exact hle)] at h
    rw [ilocYears_of hi (by omega) hins (by omega), bind_ok, bind_eq_ok] at h
    obtain ⟨_, -, h⟩ := h
    rw [ilocYears_of hk (by omega) hkes (by omega), bind_ok, show min es j = es by omega,
      show min (ne + 1) l = ne + 1 by omega] at h
    unfold vanillaAppend at h
    have hlast : ((pyRange ns es).map (fun y => (y, fun c => concIn.cell c y))).getLast? =
        some (es - 1, fun c => concIn.cell c (es - 1)) := by
      have : pyRange ns es = pyRange ns (es - 1) ++ [es - 1] := by
        have := pyRange_succ_right (a := ns) (b := es - 1) (by omega)
        rwa [Int.sub_add_cancel] at this
      rw [this, List.map_append]
      simp
    rw [hlast] at h
    have hcons : (pyRange es (ne + 1)).map (fun y => (y, fun c => emis.cell c y)) =
        (es, fun c => emis.cell c es) ::
          (pyRange (es + 1) (ne + 1)).map (fun y => (y, fun c => emis.cell c y)) := by
      rw [pyRange_cons (by omega), List.map_cons]
    have h' : Except.ok ((pyRange ns es).map (fun y => (y, fun c => concIn.cell c y)) ++
        vanillaLoop (gasOr gas) (fun c => concIn.cell c (es - 1))
          ((pyRange es (ne + 1)).map (fun y => (y, fun c => emis.cell c y)))) =
        (Except.ok rows : Except PyErr _) := by
      rw [hcons] at h ⊢
      exact h
    rw [Except.ok.injEq, vanillaLoop_eq (gasOr gas) emis.cell (ne + 1) _ es _ rfl] at h'
    rw [← h', ← pyRange_append (show ns ≤ es by omega) (show es ≤ ne + 1 by omega), List.map_append]
    congr 1
    · apply List.map_congr_left
      intro y hy
      have hy := mem_pyRange.1 hy
      simp only [Prod.mk.injEq, true_and]
      funext c
      unfold series
      rw [if_pos (by omega)]
    · apply List.map_congr_left
      intro y hy
      have hy := mem_pyRange.1 hy
      simp only [Prod.mk.injEq, true_and]
      funext c
      unfold series
      rw [if_neg (by omega)]

/-- The rows of a concentration-driven run. -/
theorem precalcConc_prescribed {gas : Dict (Gas F)} {concIn emis : Frame F} {pam : Dict (PyVal F)}
    {gases : List String} {rows : List (Row F)} {ns ne i j : ℤ}
    (h : precalcConc gas concIn emis pam gases = .ok rows)
    (hrun : pamB pam "conc_run" = .ok true) (h1 : pamI pam "nystart" = .ok ns)
    (h2 : pamI pam "nyend" = .ok ne) (hi : concIn.idx = pyRange i j) (hins : i ≤ ns)
    (hn : ns ≤ ne) (hj : ne < j) :
    rows = (pyRange ns (ne + 1)).map (fun y => (y, fun c => concIn.cell c y)) := by
  unfold precalcConc at h
  rw [bind_eq_ok] at h
  obtain ⟨_, -, h⟩ := h
  rw [hrun, bind_ok, h1, bind_ok, h2, bind_ok, bind_eq_ok] at h
  obtain ⟨es, -, h⟩ := h
  rw [if_pos (Or.inl rfl), ilocYears_of hi (by omega) hins (by omega), Except.ok.injEq] at h
  rw [← h, show min (ne + 1) j = ne + 1 by omega]

omit [Add F] [Sub F] [Mul F] [Div F] [Neg F] [OfScientific F] [LT F] [DecidableLT F] [MathFn F] in
theorem rowAt_map {gases : List String} {v : String → ℤ → F} {a b : ℤ} {c : String} {y : ℤ}
    (hc : c ∈ gases) (h1 : a ≤ y) (h2 : y < b) :
    rowAt gases ((pyRange a b).map (fun y => (y, fun c => v c y))) c y = .ok (v c y) := by
  unfold rowAt
  rw [if_pos hc, lookup_map_pyRange, if_pos ⟨h1, h2⟩]

/-! ## The forcing table -/

/-- The value of a row by year and column. -/
def rowVal (rows : List (Row F)) (c : String) (y : ℤ) : F :=
  match rows.lookup y with
  | some r => r c
  | none => 0.0

omit [Add F] [Sub F] [Mul F] [Div F] [Neg F] [OfScientific F] [LT F] [DecidableLT F] [MathFn F] in
theorem lookup_mem {rows : List (Row F)} (hnd : (rows.map Prod.fst).Nodup) {r : Row F}
    (hr : r ∈ rows) : rows.lookup r.1 = some r.2 := by
  induction rows with
  | nil => simp at hr
  | cons r' rows ih =>
    obtain ⟨y', f'⟩ := r'
    rw [List.map_cons, List.nodup_cons] at hnd
    rcases List.mem_cons.1 hr with rfl | h
    · simp [List.lookup_cons]
    · have : r.1 ≠ y' := fun e => hnd.1 (List.mem_map.2 ⟨r, h, e⟩)
      rw [List.lookup_cons]
      have hb : (r.1 == y') = false := by simpa using this
      rw [hb]
      exact ih hnd.2 h

omit [Add F] [Sub F] [Mul F] [Div F] [Neg F] [LT F] [DecidableLT F] [MathFn F] in
/-- Rows with distinct labels are given by a function of the year. -/
theorem rows_of_years {rows : List (Row F)} {a b : ℤ} (h : rows.map Prod.fst = pyRange a b) :
    rows = (pyRange a b).map (fun y => (y, fun c => rowVal rows c y)) := by
  have hnd : (rows.map Prod.fst).Nodup := h ▸ pyRange_nodup a b
  rw [← h, List.map_map]
  conv_lhs => rw [← List.map_id rows]
  apply List.map_congr_left
  intro r hr
  simp only [Function.comp, id, rowVal, lookup_mem hnd hr]

/-- Assigning a column by position when the rows are consecutive years. -/
theorem zipWith_years {α β γ : Type} (f : α → β → γ) (b : ℤ) (d : β) :
    ∀ (l : List β) (a : ℤ) (g : ℤ → α), l.length = (b - a).toNat →
      List.zipWith f ((pyRange a b).map g) l =
        (pyRange a b).map (fun y => f (g y) (l.getD (y - a).toNat d))
  | [], a, g, h => by
    rw [pyRange_empty (by simp at h; omega)]
    rfl
  | x :: l, a, g, h => by
    rw [List.length_cons] at h
    rw [pyRange_cons (by omega), List.map_cons, List.map_cons, List.zipWith_cons_cons,
      zipWith_years f b d l (a + 1) g (by omega)]
    congr 1
    · simp
    · apply List.map_congr_left
      intro y hy
      have hy := mem_pyRange.1 hy
      have : (y - a).toNat = (y - (a + 1)).toNat + 1 := by omega
      rw [this, List.getD_cons_succ]

theorem addForcingPertVanilla_nil (t : Table F) : addForcingPertVanilla [] t = .ok t := by
  unfold addForcingPertVanilla
  have : t.cols.filter (fun c => decide (c ∈ ([] : List (PertRow F)).map PertRow.component)) = [] := by
    rw [List.filter_eq_nil_iff]; simp
  rw [this]
  rfl

theorem precalcErf_years {gas : String → Gas F} {y0 y1 : ℤ} (hy : y0 < y1) (v : String → ℤ → F) :
    precalcErf gas ((pyRange y0 y1).map (fun y => (y, fun c => v c y))) =
      .ok ((pyRange y0 y1).map (fun y => (y, fun c => (gas c).sarf * (gas c).alpha *
        (v c y - v c y0)))) := by
  unfold precalcErf
  rw [pyRange_cons hy]
  simp only [List.map_cons, List.map_map]
  rfl

/-- What `precalculate` returns when the concentrations have exactly the run years as rows. -/
theorem precalculate_spec {gas : Dict (Gas F)} {concIn emis : Frame F} {pam : Dict (PyVal F)}
    {y0 y1 : ℤ} {cl br : Dict Int} {p : Precalc F} (hy : y0 < y1)
    (h : precalculate gas concIn emis pam none (pyRange y0 y1) cl br = .ok p)
    (hrows : p.conc.map Prod.fst = pyRange y0 y1) :
    ∃ so3 late, vanillaGases gas = .ok p.gases ∧ precalcConc gas concIn emis pam p.gases = .ok p.conc ∧
      gas.get? "STRAT_O3" = some so3 ∧
      (pyRange y0 (y1 - 3)).mapM (stratQuantities cl br p.gases p.conc y0) = .ok late ∧
      p.erf.cols = (if "STRAT_O3" ∈ p.gases then p.gases else p.gases ++ ["STRAT_O3"]) ∧
      ∀ c y, y0 ≤ y → y < y1 → p.erf.val c y = some (if c = "STRAT_O3" then
          stratO3Forcing so3.sarf (if y < y0 + 3 then (0.0, 0.0)
            else late.getD (y - (y0 + 3)).toNat (0.0, 0.0))
        else (gasOr gas c).sarf * (gasOr gas c).alpha * (rowVal p.conc c y - rowVal p.conc c y0)) := by
  unfold precalculate at h
  simp only [bind_eq_ok] at h
  obtain ⟨gases, hg, conc, hconc, erf0, herf, so3, hso3, strat, hstrat, rows, hadd, erf, hpert, hp⟩ := h
  rw [pure_ok, Except.ok.injEq] at hp
  subst hp
  simp only at hrows ⊢
  have hconc' := rows_of_years hrows
  have hso : gas.get? "STRAT_O3" = some so3 := by
    unfold Dict.getE at hso3
    split at hso3
    · rename_i v hv; rw [hv]; simpa using hso3
    · cases hso3
  unfold stratO3Series at hstrat
  rw [pyRange_cons hy] at hstrat
  simp only [bind_eq_ok] at hstrat
  obtain ⟨late, hlate, hstrat⟩ := hstrat
  rw [pure_ok, Except.ok.injEq, ← pyRange_cons hy, pyRange_length] at hstrat
  rw [← pyRange_cons hy, pyRange_length, pyRange_take] at hlate
  have hmin : pyRange y0 (min y1 (y0 + ((y1 - y0).toNat - 3 : ℕ))) = pyRange y0 (y1 - 3) := by
    by_cases hlt : y0 < y1 - 3
    · congr 1; omega
    · rw [pyRange_empty (by omega), pyRange_empty (by omega)]
  rw [hmin] at hlate
  refine ⟨so3, late, hg, hconc, hso, hlate, ?_, ?_⟩
  · simp only [Option.getD_none, addForcingPertVanilla_nil, Except.ok.injEq] at hpert
    subst hpert
    rfl
  · intro c y h1 h2
    simp only [Option.getD_none, addForcingPertVanilla_nil, Except.ok.injEq] at hpert
    subst hpert
    have herf' : erf0 = (pyRange y0 y1).map (fun y => (y, fun c => (gasOr gas c).sarf *
        (gasOr gas c).alpha * (rowVal conc c y - rowVal conc c y0))) := by
      rw [hconc', precalcErf_years hy, Except.ok.injEq] at herf
      exact herf.symm
    unfold addColumn at hadd
    split at hadd
    · rename_i hlen
      rw [Except.ok.injEq] at hadd
      rw [herf', List.length_map, pyRange_length] at hlen
      rw [herf', zipWith_years _ _ 0.0 _ _ _ hlen.symm] at hadd
      subst hadd
      simp only [rowsTable]
      rw [lookup_map_pyRange (fun y c => if c = "STRAT_O3" then strat.getD (y - y0).toNat 0.0
        else (gasOr gas c).sarf * (gasOr gas c).alpha * (rowVal conc c y - rowVal conc c y0)),
        if_pos ⟨h1, h2⟩]
      simp only [Option.map_some, Option.some.injEq]
      by_cases hc : c = "STRAT_O3"
      · rw [if_pos hc, if_pos hc, ← hstrat]
        have hl : late.length = (y1 - 3 - y0).toNat := by
          have := congrArg List.length (mapM_ok.1 hlate)
          simpa [pyRange_length] using this.symm
        by_cases hlt : y < y0 + 3
        · rw [if_pos hlt]
          have h3 : (y - y0).toNat < min 3 (y1 - y0).toNat := by omega
          simp [List.getD_eq_getElem?_getD, List.getElem?_append, h3]
        · rw [if_neg hlt]
          have h3 : ¬ (y - y0).toNat < min 3 (y1 - y0).toNat := by omega
          have h4 : (y - y0).toNat - min 3 (y1 - y0).toNat = (y - (y0 + 3)).toNat := by omega
          have h5 : (y - (y0 + 3)).toNat < late.length := by omega
          simp only [List.getD_eq_getElem?_getD, List.getElem?_map, List.getElem?_append,
            List.length_replicate, h3, if_false, h4, List.getElem?_eq_getElem h5, Option.map_some,
            Option.getD_some]
      · rw [if_neg hc, if_neg hc]
    · cases hadd

end
end Verif.Model.Handler
