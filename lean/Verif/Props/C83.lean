import Verif.Model.Files
import Verif.Spec.Files
import Verif.Lemmas.ResultTables
import Verif.Props.C40_C41_C57

/-!
# C83 — the output files hold the results of the run

File names (`C83_kinds`, `C83_prefixes`), contents (`C83_tables`) and their agreement with the
results kept in memory. Forcing runs, several runs and the two-layer model are in `C83_runs`.
-/

namespace Verif.Props
open Verif.Py Verif.Py.Dict Verif.Model Verif.Model.Handler Verif.Model.Driver Verif.Spec
  Verif.Model.CarbonOut Verif.Model.Results Verif.Model.Files Verif.Model.Reader Verif.Model.ThermalInst

/-! ## File names -/

theorem split_underscore {a b s t : List Char} (hs : '_' ∉ s) (ht : '_' ∉ t) (h : a ++ '_' :: s = b ++ '_' :: t) :
    a = b ∧ s = t := by
  have key : ∀ (a b s t : List Char), '_' ∉ s → '_' ∉ t → a ++ '_' :: s = b ++ '_' :: t → b.length ≤ a.length →
      a = b ∧ s = t := by
    intro a b s t hs ht h hl
    obtain ⟨c, hc1, hc2⟩ | ⟨c, hc1, hc2⟩ := List.append_eq_append_iff.1 h
    · have : c = [] := by
        have := congrArg List.length hc1
        rw [List.length_append] at this
        exact List.length_eq_zero_iff.1 (by omega)
      subst this
      rw [List.append_nil] at hc1
      rw [List.nil_append] at hc2
      injection hc2 with _ h2
      exact ⟨hc1.symm, h2⟩
    · cases c with
      | nil =>
        rw [List.append_nil] at hc1
        rw [List.nil_append] at hc2
        injection hc2 with _ h2
        exact ⟨hc1, h2.symm⟩
      | cons x c =>
        exfalso
        rw [List.cons_append] at hc2
        injection hc2 with _ h2
        apply ht
        rw [h2]
        simp
  rcases Nat.le_total b.length a.length with hl | hl
  · exact key a b s t hs ht h hl
  · obtain ⟨h1, h2⟩ := key b a t s ht hs h.symm hl
    exact ⟨h1.symm, h2.symm⟩

theorem joinPath_left {d b b' : String} (h1 : startsWith b "/" = startsWith b' "/") (h : joinPath d b = joinPath d b') :
    b = b' := by
  unfold joinPath at h
  rw [h1] at h
  split at h
  · exact h
  · split at h
    · have := congrArg String.toList h
      simp only [String.toList_append] at this
      exact String.toList_inj.1 (List.append_cancel_left this)
    · have := congrArg String.toList h
      simp only [String.toList_append] at this
      exact String.toList_inj.1 (List.append_cancel_left this)

theorem startsWith_slash (p q r : String) : startsWith (p ++ "_" ++ q ++ r) "/" = startsWith p "/" := by
  unfold startsWith
  simp only [String.toList_append]
  cases p.toList with
  | nil => rfl
  | cons c cs => rfl

theorem file_name_inj {p p' s s' : String} (hs : '_' ∉ s.toList) (hs' : '_' ∉ s'.toList)
    (h : p ++ "_" ++ s ++ ".txt" = p' ++ "_" ++ s' ++ ".txt") : p = p' ∧ s = s' := by
  have := congrArg String.toList h
  simp only [String.toList_append, List.append_assoc] at this
  have h1 : (p.toList ++ '_' :: s.toList) ++ ".txt".toList = (p'.toList ++ '_' :: s'.toList) ++ ".txt".toList := by
    simpa using this
  obtain ⟨a, b⟩ := split_underscore hs hs' (List.append_cancel_right h1)
  exact ⟨String.toList_inj.1 a, String.toList_inj.1 b⟩

theorem kinds_plain {s : String} (h : s ∈ fileKinds) : '_' ∉ s.toList := by
  revert s
  decide

/-- C83: within a run, files of different kinds never share a name, whatever folder and prefix are. -/
theorem C83_kinds (c : OutCfg) (cwd : String) {s s' : String} (hs : s ∈ fileKinds) (hs' : s' ∈ fileKinds)
    (h : c.path cwd s = c.path cwd s') : s = s' := by
  unfold OutCfg.path at h
  have := joinPath_left (by rw [startsWith_slash, startsWith_slash]) h
  exact (file_name_inj (kinds_plain hs) (kinds_plain hs') this).2

/-- C83: runs into the same folder with different prefixes write different files. (Prefixes that are absolute paths leave
the folder.) -/
theorem C83_prefixes (c c' : OutCfg) (cwd : String) (hf : c.folder = c'.folder)
    (hp : startsWith (c.pre.getD "output") "/" = false) (hp' : startsWith (c'.pre.getD "output") "/" = false)
    {s s' : String} (hs : s ∈ fileKinds) (hs' : s' ∈ fileKinds) (h : c.path cwd s = c'.path cwd s') :
    c.pre.getD "output" = c'.pre.getD "output" ∧ s = s' := by
  unfold OutCfg.path at h
  rw [hf] at h
  have := joinPath_left (by
    rw [startsWith_slash, startsWith_slash, hp, hp']) h
  exact file_name_inj (kinds_plain hs) (kinds_plain hs') this

/-- The names in use: the default folder is `output` under the working directory, the default prefix `output`. -/
example : (⟨none, none, false⟩ : OutCfg).path "/home/me" "temp" = "/home/me/output/output_temp.txt" ∧
    (⟨some "/data/", some "run1", false⟩ : OutCfg).path "/home/me" "forc" = "/data/run1_forc.txt" := by
  constructor <;> decide

/-- Two prefixes that meet the hypotheses of `C83_prefixes`. -/
example : (⟨some "out", some "a", true⟩ : OutCfg).path "/w" "temp" ≠ (⟨some "out", some "b", false⟩ : OutCfg).path "/w" "temp" :=
  fun h => by
    have := (C83_prefixes ⟨some "out", some "a", true⟩ ⟨some "out", some "b", false⟩ "/w" rfl (by decide) (by decide)
      (by decide) (by decide) h).1
    revert this
    decide

/-! ## Contents -/

theorem getD_range {α : Type} (n : ℕ) (xs : List α) (d : α) (h : xs.length = n) :
    (List.range n).map (fun i => xs.getD i d) = xs := by
  apply List.ext_getElem
  · simp [h]
  · intro i h1 h2
    simp only [List.getElem_map, List.getElem_range]
    rw [List.getD_eq_getElem?_getD, List.getElem?_eq_getElem h2]
    rfl

theorem columnsOf_toCsv {n : ℕ} {cols : List (String × List String)} (h : ∀ c ∈ cols, c.2.length = n) :
    columnsOf (toCsv n cols) = cols := by
  unfold columnsOf toCsv
  simp only
  apply List.ext_getElem
  · simp
  · intro j h1 h2
    simp only [List.getElem_map, List.getElem_zipIdx, Nat.zero_add, List.map_map]
    have hj : j < cols.length := h2
    have e : (List.range n).map ((fun r : List String => r.getD j "") ∘ fun i => cols.map (fun c => c.2.getD i "")) =
        (List.range n).map (fun i => (cols[j]).2.getD i "") := by
      apply List.map_congr_left
      intro i _
      simp only [Function.comp]
      rw [List.getD_eq_getElem?_getD, List.getElem?_map, List.getElem?_eq_getElem hj]
      rfl
    rw [e, getD_range n _ "" (h _ (List.getElem_mem hj))]

theorem rowCount_toCsv (n : ℕ) (cols : List (String × List String)) : rowCount (toCsv n cols) = n := by
  simp [rowCount, toCsv]

theorem rotate_perm {α : Type} (xs : List α) : (rotate xs).Perm xs := by
  unfold rotate
  split
  · rename_i x hx
    have : xs = xs.dropLast ++ [x] := (List.dropLast_append_getLast? x hx).symm
    conv => rhs; rw [this]
    exact (List.perm_append_singleton x _).symm
  · rename_i hx
    rw [List.getLast?_eq_none_iff] at hx
    rw [hx]

/-- Files named by kind. -/
def named (c : OutCfg) (cwd : String) (ks : List (String × Grid)) : List (String × Grid) :=
  ks.map (fun k => (c.path cwd k.1, k.2))

theorem onDisk_other {writes : List (String × Grid)} {q : String} (h : ∀ w ∈ writes, w.1 ≠ q) (fs : Dict Grid) :
    (onDisk fs writes).get? q = fs.get? q := by
  unfold onDisk
  induction writes generalizing fs with
  | nil => rfl
  | cons w ws ih =>
    rw [List.foldl_cons, ih (fun x hx => h x (List.mem_cons_of_mem _ hx)), Dict.get?_set,
      if_neg (h w List.mem_cons_self)]

theorem onDisk_written {writes : List (String × Grid)} {q : String} {g : Grid} (h : ∀ w ∈ writes, w.1 = q → w.2 = g)
    (hq : (q, g) ∈ writes) (fs : Dict Grid) : (onDisk fs writes).get? q = some g := by
  induction writes generalizing fs with
  | nil => cases hq
  | cons w ws ih =>
    by_cases hm : (q, g) ∈ ws
    · exact ih (fun x hx => h x (List.mem_cons_of_mem _ hx)) hm _
    · have hw : w = (q, g) := by
        rcases List.mem_cons.1 hq with e | e
        · exact e.symm
        · exact absurd e hm
      have : (onDisk fs (w :: ws)).get? q = (onDisk (fs.set w.1 w.2) ws).get? q := rfl
      rw [this, onDisk_other, hw, Dict.get?_set, if_pos rfl]
      intro x hx e
      apply hm
      have := h x (List.mem_cons_of_mem _ hx) e
      rw [← e, ← this]
      exact hx

theorem onDisk_kind {c : OutCfg} {cwd : String} {ks : List (String × Grid)} (hk : ∀ k ∈ ks, k.1 ∈ fileKinds)
    {s : String} {g : Grid} (hs : (s, g) ∈ ks) (h : ∀ k ∈ ks, k.1 = s → k.2 = g) (fs : Dict Grid) :
    (onDisk fs (named c cwd ks)).get? (c.path cwd s) = some g := by
  apply onDisk_written
  · intro w hw e
    obtain ⟨k, hkm, rfl⟩ := List.mem_map.1 hw
    exact h k hkm (C83_kinds c cwd (hk k hkm) (hk _ hs) e)
  · exact List.mem_map.2 ⟨(s, g), hs, rfl⟩

section
variable {F κ τ : Type} [Add F] [Sub F] [Mul F] [Div F] [Neg F] [OfScientific F] [LT F] [DecidableLT F]
  [MathFn F]

/-- The grid of some series of the results. -/
def gridOf (fmt : F → String) (d : Driver F κ) (names : List String) : Grid :=
  let years := pyRange d.nystart (d.nyend + 1)
  toCsv years.length (yearCol years :: names.map (fun n => numCol fmt (n, (d.results.get? n).getD [])))

omit [Add F] [Sub F] [Mul F] [Div F] [Neg F] [OfScientific F] [LT F] [DecidableLT F] [MathFn F] in
theorem dataGrid_ok {fmt : F → String} {d : Driver F κ} {names : List String}
    (h : ∀ n ∈ names, ∃ a, d.results.get? n = some a) : dataGrid fmt d names = .ok (gridOf fmt d names) := by
  unfold dataGrid gridOf
  have : names.mapM (fun n => do
      let a ← d.results.getE n
      return numCol fmt (n, a)) = (.ok (names.map (fun n => numCol fmt (n, (d.results.get? n).getD []))) :
        Except PyErr _) := by
    rw [mapM_ok, List.map_map]
    apply List.map_congr_left
    intro n hn
    obtain ⟨a, ha⟩ := h n hn
    simp only [Dict.getE, ha, bind_ok, Function.comp, Option.getD_some]
    rfl
  simp only []
  rw [this]
  rfl

omit [Add F] [Sub F] [Mul F] [Div F] [Neg F] [OfScientific F] [LT F] [DecidableLT F] [MathFn F] in
theorem writeGrids_ok {fmt : F → String} {cwd : String} {c : OutCfg} {d : Driver F κ} :
    ∀ {l : List (String × List String)}, (∀ s ∈ l, ∀ n ∈ s.2, ∃ a, d.results.get? n = some a) →
      writeGrids fmt cwd c d l = (named c cwd (l.map (fun s => (s.1, gridOf fmt d s.2))), .ok ()) := by
  intro l
  induction l with
  | nil => intro _; rfl
  | cons s l ih =>
    intro h
    unfold writeGrids
    rw [dataGrid_ok (h s List.mem_cons_self), ih (fun s hs => h s (List.mem_cons_of_mem _ hs))]
    rfl

omit [Add F] [Sub F] [Mul F] [Div F] [Neg F] [OfScientific F] [LT F] [DecidableLT F] [MathFn F] in
theorem dataFiles_ok {fmt : F → String} {cwd : String} {c : OutCfg} {d : Driver F κ}
    (h : ∀ n ∈ writerSeries d.source.isForcing, ∃ a, d.results.get? n = some a) :
    dataFiles fmt cwd c d = (named c cwd ((dataColumns ++ if d.source.isForcing then [("forc", ["Total_forcing"])]
      else []).map (fun s => (s.1, gridOf fmt d s.2))), .ok ()) := by
  have hall : ∀ s ∈ (dataColumns ++ if d.source.isForcing then [("forc", ["Total_forcing"])] else []),
      ∀ n ∈ s.2, ∃ a, d.results.get? n = some a := by
    intro s hs n hn
    apply h
    revert n s
    cases d.source.isForcing <;> decide
  unfold dataFiles
  obtain ⟨x, hx⟩ := mapM_all_ok (l := dataColumns.take 3) (f := fun s : String × List String => dataGrid fmt d s.2) (by
    intro s hs
    exact ⟨_, dataGrid_ok (hall s (List.mem_append_left _ (List.mem_of_mem_take hs)))⟩)
  rw [hx]
  exact writeGrids_ok hall

theorem frameOver_len {years : List ℤ} {cols : List (String × (ℤ → Option F))} {t : Df F}
    (h : frameOver years cols = .ok t) : t.years = years ∧ ∀ q ∈ t.cols, q.2.length = years.length := by
  unfold frameOver at h
  rw [bind_eq_ok] at h
  obtain ⟨q, hq, h⟩ := h
  rw [pure_ok, Except.ok.injEq] at h
  subst h
  refine ⟨rfl, ?_⟩
  intro x hx
  have e := mapM_ok.1 hq
  have : (.ok x : Except PyErr (String × List F)) ∈ q.map Except.ok := List.mem_map_of_mem hx
  rw [← e] at this
  obtain ⟨k, -, hk⟩ := List.mem_map.1 this
  unfold columnOver at hk
  rw [bind_eq_ok] at hk
  obtain ⟨vs, hvs, hk⟩ := hk
  rw [pure_ok, Except.ok.injEq] at hk
  subst hk
  have := congrArg List.length (mapM_ok.1 hvs)
  simpa using this.symm


/-- The carbon file, written twice. -/
def carbonGrids (fmt : F → String) (n : ℕ) (tab : Option (List (Column F))) : List (String × Grid) :=
  match tab with
  | some k => [("carbon", toCsv n (k.map (nanCol fmt n))), ("carbon", toCsv n (k.map (nanCol fmt n)))]
  | none => []

/-- The tables the two ways of reporting share. -/
theorem handlerFiles_spec {oops : OutputOps F κ} {tops : ThermalOps F τ} {d1 d2 : Driver F κ} {g : Handler F κ}
    {c : OutCfg} {r : Results F} (fmt : F → String) (cwd : String) (hg : d1.source = .handler g)
    (h : runResults oops tops d1 c.carbon = .ok (r, d2)) :
    ∃ tab te tc tf, carbonTable oops tops d1 c.carbon = .ok (tab, d2) ∧ r.series = d1.results ∧
      (te.years = g.years ∧ ∀ q ∈ te.cols, q.2.length = g.years.length) ∧
      (tc.years = g.years ∧ ∀ q ∈ tc.cols, q.2.length = g.years.length) ∧
      (tf.years = g.years ∧ ∀ q ∈ tf.cols, q.2.length = g.years.length) ∧
      r.tables.get? "emissions" = some te ∧ r.tables.get? "concentrations" = some tc ∧
      r.tables.get? "forcing" = some tf ∧
      handlerFiles fmt cwd c oops tops d1 = (named c cwd (
        [("em", toCsv g.years.length (yearFirst fmt te)), ("conc", toCsv g.years.length (yearFirst fmt tc)),
          ("forc", toCsv g.years.length (forcingCols fmt g tf))] ++
        carbonGrids fmt g.years.length tab), .ok d2) := by
  unfold runResults at h
  rw [hg] at h
  simp only [bind_eq_ok] at h
  obtain ⟨⟨tab, d'⟩, h1, y0, h2, tf, h3, em, h4, te, h5, tc, h6, h⟩ := h
  have hd : d' = d2 ∧ r.series = d1.results ∧ r.tables.get? "emissions" = some te ∧
      r.tables.get? "concentrations" = some tc ∧ r.tables.get? "forcing" = some tf := by
    cases tab <;> simp only [pure_ok, Except.ok.injEq, Prod.mk.injEq] at h <;> obtain ⟨rfl, rfl⟩ := h <;>
      simp [Dict.get?]
  obtain ⟨rfl, hs, t1, t2, t3⟩ := hd
  refine ⟨tab, te, tc, tf, h1, hs, frameOver_len h5, frameOver_len h6, frameOver_len h3, t1, t2, t3, ?_⟩
  unfold handlerFiles
  rw [hg]
  simp only [h1, h2, h3, h4, h5, h6, bind_ok]
  cases tab <;> rfl

theorem carbonTable_frame {oops : OutputOps F κ} {tops : ThermalOps F τ} {d d' : Driver F κ} {asked : Bool}
    {tab : Option (List (Column F))} (h : carbonTable oops tops d asked = .ok (tab, d')) :
    d'.results = d.results ∧ d'.nystart = d.nystart ∧ d'.nyend = d.nyend ∧ d'.source.isForcing = d.source.isForcing ∧
    (asked = true → d.source.isForcing = false → ∃ k, tab = some k) ∧ (asked = false → tab = none) := by
  unfold carbonTable at h
  cases hs : d.source with
  | forcing f =>
    rw [hs] at h
    simp only [Except.ok.injEq, Prod.mk.injEq] at h
    obtain ⟨rfl, rfl⟩ := h
    exact ⟨rfl, rfl, rfl, by rw [hs], fun _ e => (by cases e), fun _ => rfl⟩
  | handler g =>
    rw [hs] at h
    simp only [bind_eq_ok] at h
    obtain ⟨fbs, -, h⟩ := h
    cases asked with
    | true =>
      simp only [if_true, bind_eq_ok] at h
      obtain ⟨r, -, h⟩ := h
      rw [pure_ok, Except.ok.injEq, Prod.mk.injEq] at h
      obtain ⟨rfl, rfl⟩ := h
      exact ⟨rfl, rfl, rfl, rfl, fun _ _ => ⟨_, rfl⟩, fun e => by cases e⟩
    | false =>
      simp only [Bool.false_eq_true, if_false] at h
      rw [pure_ok, Except.ok.injEq, Prod.mk.injEq] at h
      obtain ⟨rfl, rfl⟩ := h
      exact ⟨rfl, rfl, rfl, by rw [hs], fun e => (by cases e), fun _ => rfl⟩

theorem results_len {cops : CarbonOps F κ} {tops : ThermalOps F τ} {d d' : Driver F κ}
    {p : RunPams F} {t' : τ} (hnd : (tops.outputs.map Prod.fst ++ forcOutputList).Nodup)
    (h : run cops tops d p = .ok (d', t')) {o : String}
    (ho : o ∈ tops.outputs.map Prod.fst ++ forcOutputList) :
    ∃ a, d'.results.get? o = some a ∧ a.length = (pyRange d'.nystart (d'.nyend + 1)).length := by
  obtain ⟨_, _, _, _, -, -, -, -, -, -, -, h1, ⟨a2, h2, l2, -⟩, ⟨a3, h3, l3, -⟩, ⟨a4, h4, l4, -⟩, ⟨a5, h5, l5, -⟩⟩ :=
    C40_run hnd h
  have e : (pyRange d'.nystart (d'.nyend + 1)).length = (d'.nyend - d'.nystart + 1).toNat := by
    rw [pyRange_length]; congr 1; omega
  rw [e]
  rcases List.mem_append.1 ho with hm | hm
  · obtain ⟨q, hq, rfl⟩ := List.mem_map.1 hm
    obtain ⟨a, e, l, -⟩ := h1 q hq
    exact ⟨a, e, l⟩
  · simp only [forcOutputList, List.mem_cons, List.not_mem_nil, or_false] at hm
    rcases hm with rfl | rfl | rfl | rfl
    · exact ⟨_, h2, l2⟩
    · exact ⟨_, h3, l3⟩
    · exact ⟨_, h4, l4⟩
    · exact ⟨_, h5, l5⟩

/-- C83, runs driven by emissions or concentrations with the outputs of the diffusion model (any history, any carbon
cycle): in file mode the run ends well exactly as with results in memory, in the same state, and afterwards the disk holds
for each of the result tables `r` a file with one line for each year, a column `Year` and all columns of the table
formatted, `Year` first (except in the forcing file, where the last column of the table comes first if the run has
components computed ahead, that is if the table has more columns than the run computes year by year); if asked for, the carbon table, without years; and the yearly series.
No other file is touched. -/
theorem C83_tables {cops : CarbonOps F κ} {oops : OutputOps F κ} {tops : ThermalOps F τ} {d d1 d2 : Driver F κ}
    {p : RunPams F} {t : τ} {g : Handler F κ} {c : OutCfg} {r : Results F} (fmt : F → String) (cwd : String)
    (fs : Dict Grid) (ho : tops.outputs = udmOutputs) (hr : run cops tops d p = .ok (d1, t)) (hg : d1.source = .handler g)
    (hres : runResults oops tops d1 c.carbon = .ok (r, d2)) :
    ∃ w, runFiles fmt cwd c oops tops d1 = (w, .ok d2) ∧
      let disk := onDisk fs w
      let numbers := fun (f : Df F) => f.cols.map (fun k => (k.1, k.2.map fmt))
      (∀ q, (∀ s ∈ fileKinds, c.path cwd s ≠ q) → disk.get? q = fs.get? q) ∧
      (∀ x ∈ [("emissions", "em"), ("concentrations", "conc"), ("forcing", "forc")], ∃ f file,
        r.tables.get? x.1 = some f ∧ disk.get? (c.path cwd x.2) = some file ∧ f.years = g.years ∧
        rowCount file = g.years.length ∧
        (columnsOf file).Perm (("Year", g.years.map toString) :: numbers f) ∧
        (x.2 ≠ "forc" ∨ f.cols.length ≤ g.forcKeys.length → columnsOf file = ("Year", g.years.map toString) :: numbers f) ∧
        (x.2 = "forc" → g.forcKeys.length < f.cols.length → (columnsOf file).head? = (numbers f).getLast?)) ∧
      (c.carbon = false → disk.get? (c.path cwd "carbon") = fs.get? (c.path cwd "carbon")) ∧
      (c.carbon = true → ∃ tab file, carbonTable oops tops d1 true = .ok (some tab, d2) ∧
        disk.get? (c.path cwd "carbon") = some file ∧ rowCount file = g.years.length ∧
        ((∀ k ∈ tab, ∀ vs, k.2 = some vs → vs.length = g.years.length) →
          columnsOf file = tab.map (fun k => (k.1, match k.2 with
            | some vs => vs.map fmt
            | none => List.replicate g.years.length "")))) ∧
      ∀ x ∈ seriesFiles, ∃ file, disk.get? (c.path cwd x.1) = some file ∧
        columnsOf file = ("Year", (pyRange d1.nystart (d1.nyend + 1)).map toString) ::
          x.2.map (fun n => (n, ((d1.results.get? n).getD []).map fmt)) ∧
        ∀ n ∈ x.2, ∃ a, d1.results.get? n = some a := by
  have hnd : (tops.outputs.map Prod.fst ++ forcOutputList).Nodup := by
    rw [ho]; decide +kernel
  obtain ⟨tab, te, tc, tf, k1, k2, he, hc, hf, k3, k4, k5, k6⟩ := handlerFiles_spec fmt cwd hg hres
  obtain ⟨d1r, d1s, d1e, d1f, d1c, d1n⟩ := carbonTable_frame k1
  have hfor : d1.source.isForcing = false := by rw [hg]; rfl
  have hser : ∀ n ∈ writerSeries false, ∃ a, d1.results.get? n = some a ∧
      a.length = (pyRange d1.nystart (d1.nyend + 1)).length := by
    intro n hn
    refine results_len hnd hr ?_
    rw [ho]
    have : ∀ n ∈ writerSeries false, n ∈ udmOutputs.map Prod.fst ++ forcOutputList := by decide +kernel
    exact this n hn
  have hdf := dataFiles_ok (fmt := fmt) (cwd := cwd) (c := c) (d := d2) (by
    rw [d1f, hfor, d1r]
    intro n hn
    obtain ⟨a, ha, -⟩ := hser n hn
    exact ⟨a, ha⟩)
  rw [d1f, hfor] at hdf
  simp only [Bool.false_eq_true, if_false, List.append_nil] at hdf
  have hgrid : ∀ names, gridOf fmt d2 names = gridOf fmt d1 names := by
    intro names
    unfold gridOf
    rw [d1s, d1e, d1r]
  obtain ⟨ks, hks⟩ : ∃ ks : List (String × Grid), ks =
      [("em", toCsv g.years.length (yearFirst fmt te)), ("conc", toCsv g.years.length (yearFirst fmt tc)),
          ("forc", toCsv g.years.length (forcingCols fmt g tf))] ++
        carbonGrids fmt g.years.length tab ++ seriesFiles.map (fun s => (s.1, gridOf fmt d1 s.2)) := ⟨_, rfl⟩
  have hw : runFiles fmt cwd c oops tops d1 = (named c cwd ks, .ok d2) := by
    unfold runFiles
    rw [k6]
    simp only
    rw [hdf]
    simp only [Except.map, hgrid]
    rw [hks]
    unfold named
    rw [List.map_append (l₁ := _ ++ _)]
    rfl
  refine ⟨_, hw, ?_⟩
  have hks' : ∀ k ∈ ks, k = ("em", toCsv g.years.length (yearFirst fmt te)) ∨
      k = ("conc", toCsv g.years.length (yearFirst fmt tc)) ∨ k = ("forc", toCsv g.years.length (forcingCols fmt g tf)) ∨
      k = ("carbon", toCsv g.years.length ((tab.getD []).map (nanCol fmt g.years.length))) ∨
      k ∈ seriesFiles.map (fun s => (s.1, gridOf fmt d1 s.2)) := by
    intro k hk
    rw [hks] at hk
    rcases List.mem_append.1 hk with h | h
    · rcases List.mem_append.1 h with h | h
      · simp only [List.mem_cons, List.not_mem_nil, or_false] at h
        rcases h with h | h | h
        · exact Or.inl h
        · exact Or.inr (Or.inl h)
        · exact Or.inr (Or.inr (Or.inl h))
      · cases tab with
        | none => cases h
        | some x =>
          simp only [carbonGrids, List.mem_cons, List.not_mem_nil, or_false, or_self] at h
          exact Or.inr (Or.inr (Or.inr (Or.inl h)))
    · exact Or.inr (Or.inr (Or.inr (Or.inr h)))
  have hkinds : ∀ k ∈ ks, k.1 ∈ fileKinds := by
    intro k hk
    rcases hks' k hk with rfl | rfl | rfl | rfl | h
    · simp [fileKinds]
    · simp [fileKinds]
    · simp [fileKinds]
    · simp [fileKinds]
    · obtain ⟨x, hx, rfl⟩ := List.mem_map.1 h
      exact (by decide : ∀ x ∈ seriesFiles, x.1 ∈ fileKinds) x hx
  have hnot : ∀ s ∈ ["em", "conc", "forc", "carbon"], ∀ x ∈ seriesFiles, x.1 ≠ s := by decide
  have huniq : ∀ x ∈ seriesFiles, ∀ y ∈ seriesFiles, x.1 = y.1 → x = y := by decide
  have hmem : ∀ k ∈ [("em", toCsv g.years.length (yearFirst fmt te)), ("conc", toCsv g.years.length (yearFirst fmt tc)),
      ("forc", toCsv g.years.length (forcingCols fmt g tf))], k ∈ ks := by
    intro k hk
    rw [hks]
    exact List.mem_append_left _ (List.mem_append_left _ hk)
  have hone : ∀ k ∈ ks, (k.1 = "em" → k.2 = toCsv g.years.length (yearFirst fmt te)) ∧
      (k.1 = "conc" → k.2 = toCsv g.years.length (yearFirst fmt tc)) ∧
      (k.1 = "forc" → k.2 = toCsv g.years.length (forcingCols fmt g tf)) ∧
      (k.1 = "carbon" → k.2 = toCsv g.years.length ((tab.getD []).map (nanCol fmt g.years.length))) ∧
      ∀ x ∈ seriesFiles, k.1 = x.1 → k.2 = gridOf fmt d1 x.2 := by
    intro k hk
    rcases hks' k hk with rfl | rfl | rfl | rfl | h
    · exact ⟨fun _ => rfl, fun e => absurd e (by simp), fun e => absurd e (by simp), fun e => absurd e (by simp),
        fun x hx e => absurd e.symm (hnot _ (by simp) x hx)⟩
    · exact ⟨fun e => absurd e (by simp), fun _ => rfl, fun e => absurd e (by simp), fun e => absurd e (by simp),
        fun x hx e => absurd e.symm (hnot _ (by simp) x hx)⟩
    · exact ⟨fun e => absurd e (by simp), fun e => absurd e (by simp), fun _ => rfl, fun e => absurd e (by simp),
        fun x hx e => absurd e.symm (hnot _ (by simp) x hx)⟩
    · exact ⟨fun e => absurd e (by simp), fun e => absurd e (by simp), fun e => absurd e (by simp), fun _ => rfl,
        fun x hx e => absurd e.symm (hnot _ (by simp) x hx)⟩
    · obtain ⟨x, hx, rfl⟩ := List.mem_map.1 h
      refine ⟨fun e => absurd e (hnot _ (by simp) x hx), fun e => absurd e (hnot _ (by simp) x hx),
        fun e => absurd e (hnot _ (by simp) x hx), fun e => absurd e (hnot _ (by simp) x hx), ?_⟩
      intro y hy e
      rw [huniq x hx y hy e]
  have hlen : ∀ {f : Df F}, (f.years = g.years ∧ ∀ q ∈ f.cols, q.2.length = g.years.length) →
      ∀ k ∈ yearFirst fmt f, k.2.length = g.years.length := by
    intro f hf k hk
    unfold yearFirst at hk
    rcases List.mem_cons.1 hk with rfl | h
    · simp [yearCol, hf.1]
    · obtain ⟨q, hq, rfl⟩ := List.mem_map.1 h
      simp [numCol, hf.2 q hq]
  have hperm : (forcingCols fmt g tf).Perm (yearFirst fmt tf) := by
    unfold forcingCols yearFirst
    refine (rotate_perm _).trans ?_
    rw [List.append_assoc]
    refine List.perm_middle.trans ?_
    change (yearCol tf.years :: (_ ++ (tf.cols.drop g.forcKeys.length).map (numCol fmt))).Perm _
    rw [← List.map_append, List.take_append_drop]
  have hlf : ∀ k ∈ forcingCols fmt g tf, k.2.length = g.years.length := fun k hk => hlen hf k (hperm.mem_iff.1 hk)
  have hyf : ∀ {f : Df F}, f.years = g.years →
      yearFirst fmt f = ("Year", g.years.map toString) :: f.cols.map (fun k => (k.1, k.2.map fmt)) := by
    intro f h
    unfold yearFirst
    rw [h]
    rfl
  refine ⟨?_, ?_, ?_, ?_, ?_⟩
  · intro q hq
    apply onDisk_other
    intro w hw e
    obtain ⟨k, hk, rfl⟩ := List.mem_map.1 hw
    exact hq k.1 (hkinds k hk) e
  · intro x hx
    simp only [List.mem_cons, List.not_mem_nil, or_false] at hx
    rcases hx with rfl | rfl | rfl
    · refine ⟨te, _, k3, onDisk_kind hkinds (hmem _ (by simp)) (fun k hk => (hone k hk).1) fs, he.1, rowCount_toCsv _ _, ?_, ?_, ?_⟩
      · rw [columnsOf_toCsv (hlen he), hyf he.1]
      · intro _
        rw [columnsOf_toCsv (hlen he), hyf he.1]
      · intro h
        exact absurd h (by simp)
    · refine ⟨tc, _, k4, onDisk_kind hkinds (hmem _ (by simp)) (fun k hk => (hone k hk).2.1) fs, hc.1, rowCount_toCsv _ _, ?_, ?_, ?_⟩
      · rw [columnsOf_toCsv (hlen hc), hyf hc.1]
      · intro _
        rw [columnsOf_toCsv (hlen hc), hyf hc.1]
      · intro h
        exact absurd h (by simp)
    · refine ⟨tf, _, k5, onDisk_kind hkinds (hmem _ (by simp)) (fun k hk => (hone k hk).2.2.1) fs, hf.1, rowCount_toCsv _ _, ?_, ?_, ?_⟩
      · rw [columnsOf_toCsv hlf, ← hyf hf.1]
        exact hperm
      · intro h
        rcases h with h | h
        · exact absurd rfl h
        · rw [columnsOf_toCsv hlf, ← hyf hf.1]
          unfold forcingCols yearFirst
          rw [List.take_of_length_le h, List.drop_eq_nil_of_le h]
          simp [rotate]
      · intro _ h
        rw [columnsOf_toCsv hlf]
        unfold forcingCols
        have hne : (tf.cols.drop g.forcKeys.length).map (numCol fmt) ≠ [] := by
          intro e
          have := congrArg List.length e
          simp at this
          omega
        have hl : (tf.cols.map (fun k => (k.1, k.2.map fmt))).getLast? =
            ((tf.cols.drop g.forcKeys.length).map (numCol fmt)).getLast? := by
          rw [List.getLast?_map, List.getLast?_map, List.getLast?_drop, if_neg (by omega)]
          rfl
        rw [hl]
        unfold rotate
        rw [List.getLast?_append]
        obtain ⟨x, hx⟩ : ∃ x, ((tf.cols.drop g.forcKeys.length).map (numCol fmt)).getLast? = some x :=
          ⟨_, List.getLast?_eq_some_getLast hne⟩
        rw [hx]
        rfl
  · intro hcar
    apply onDisk_other
    intro w hw e
    obtain ⟨k, hk, rfl⟩ := List.mem_map.1 hw
    have e' : k.1 = "carbon" := C83_kinds c cwd (hkinds k hk) (by decide) e
    have htab : tab = none := d1n hcar
    rw [hks, htab] at hk
    simp only [carbonGrids, List.append_nil] at hk
    rcases List.mem_append.1 hk with h | h
    · simp only [List.mem_cons, List.not_mem_nil, or_false] at h
      rcases h with rfl | rfl | rfl <;> simp at e' 
    · obtain ⟨x, hx, rfl⟩ := List.mem_map.1 h
      exact hnot "carbon" (by simp) x hx e'
  · intro hcar
    obtain ⟨k, rfl⟩ := d1c hcar hfor
    rw [hcar] at k1
    refine ⟨k, _, k1, onDisk_kind hkinds (s := "carbon") (g := toCsv g.years.length (k.map (nanCol fmt g.years.length))) ?_
      (fun q hq => (hone q hq).2.2.2.1) fs, rowCount_toCsv _ _, ?_⟩
    · rw [hks]
      simp [carbonGrids]
    · intro hl
      rw [columnsOf_toCsv]
      · rfl
      · intro q hq
        obtain ⟨a, ha, rfl⟩ := List.mem_map.1 hq
        unfold nanCol
        cases hv : a.2 with
        | none => simp
        | some vs => simp [hl a ha vs hv]
  · intro x hx
    have hn : ∀ n ∈ x.2, n ∈ writerSeries false :=
      (by decide : ∀ x ∈ seriesFiles, ∀ n ∈ x.2, n ∈ writerSeries false) x hx
    refine ⟨gridOf fmt d1 x.2, onDisk_kind hkinds ?_ (fun k hk => (hone k hk).2.2.2.2 x hx) fs, ?_, ?_⟩
    · rw [hks]
      exact List.mem_append_right _ (List.mem_map.2 ⟨x, hx, rfl⟩)
    · unfold gridOf
      simp only
      rw [columnsOf_toCsv]
      · rfl
      · intro k hk
        rcases List.mem_cons.1 hk with rfl | h
        · simp [yearCol]
        · obtain ⟨n, hnm, rfl⟩ := List.mem_map.1 h
          obtain ⟨a, ha, hl⟩ := hser n (hn n hnm)
          simp [numCol, ha, hl]
    · intro n hnm
      obtain ⟨a, ha, -⟩ := hser n (hn n hnm)
      exact ⟨a, ha⟩

end
end Verif.Props
