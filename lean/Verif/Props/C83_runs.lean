import Verif.Props.C83
import Verif.Props.C77
import Verif.Props.C63_udm
import Verif.Props.C81_bounded

/-!
# C83 — files of forcing runs, of several runs in one folder, and of the two-layer model
-/

namespace Verif.Props
open Verif.Py Verif.Py.Dict Verif.Model Verif.Model.Handler Verif.Model.Driver Verif.Spec
  Verif.Model.CarbonOut Verif.Model.Results Verif.Model.Files Verif.Model.Reader Verif.Model.ThermalInst

section
variable {F κ τ : Type} [Add F] [Sub F] [Mul F] [Div F] [Neg F] [OfScientific F] [LT F] [DecidableLT F]
  [MathFn F]

/-- A run driven by forcings keeps them. -/
theorem forcing_kept {cops : CarbonOps F κ} {tops : ThermalOps F τ} {d d1 : Driver F κ} {p : RunPams F} {t : τ}
    {f : Forcing F} (hnd : (tops.outputs.map Prod.fst ++ forcOutputList).Nodup) (hr : run cops tops d p = .ok (d1, t))
    (hg : d.source = .forcing f) : d1.source = .forcing f := by
  obtain ⟨st, src, fo, vals, -, h1, -, h2, -, -, h3, -⟩ := C40_run hnd hr
  rw [hg] at h1
  have h1 : (.ok (.forcing f) : Except PyErr (Source F κ)) = .ok (src d.nystart) := h1
  rw [Except.ok.injEq] at h1
  have key : ∀ n : ℕ, d.nystart + n ≤ d.nyend + 1 → src (d.nystart + n) = .forcing f := by
    intro n
    induction n with
    | zero => intro _; rw [h1]; simp
    | succ n ih =>
      intro hn
      have e := (h3 (d.nystart + n) (by omega) (by push_cast at hn; omega)).1
      rw [ih (by push_cast at hn; omega)] at e
      unfold yearForcing at e
      simp only [bind_eq_ok, pure_ok, Except.ok.injEq, Prod.mk.injEq] at e
      obtain ⟨-, -, -, e⟩ := e
      rw [show d.nystart + ((n + 1 : ℕ) : ℤ) = d.nystart + n + 1 by push_cast; ring, ← e]
  obtain ⟨tr, ht⟩ := run_trace hr
  have hle := (initialise_spec (startRun_spec ht.start).1).1
  have := key (d.nyend + 1 - d.nystart).toNat (by omega)
  rw [h2, ← this]
  congr 1
  omega

/-- C83, runs driven by forcings with the outputs of the diffusion model: the four files of series and a file `forc` with
the total forcing are written, the instance is left as it was, and no other file is touched. -/
theorem C83_forcing_run {cops : CarbonOps F κ} {oops : OutputOps F κ} {tops : ThermalOps F τ} {d d1 : Driver F κ}
    {p : RunPams F} {t : τ} {f : Forcing F} (fmt : F → String) (cwd : String) (c : OutCfg) (fs : Dict Grid)
    (ho : tops.outputs = udmOutputs) (hr : run cops tops d p = .ok (d1, t)) (hs : d.source = .forcing f) :
    ∃ w, runFiles fmt cwd c oops tops d1 = (w, .ok d1) ∧
      let disk := onDisk fs w
      (∀ q, (∀ s ∈ ["forc", "ohc", "rib", "temp", "sunvolc"], c.path cwd s ≠ q) → disk.get? q = fs.get? q) ∧
      ∀ x ∈ seriesFiles ++ [("forc", ["Total_forcing"])], ∃ file, disk.get? (c.path cwd x.1) = some file ∧
        columnsOf file = ("Year", (pyRange d1.nystart (d1.nyend + 1)).map toString) ::
          x.2.map (fun n => (n, ((d1.results.get? n).getD []).map fmt)) ∧
        ∀ n ∈ x.2, ∃ a, d1.results.get? n = some a := by
  have hnd : (tops.outputs.map Prod.fst ++ forcOutputList).Nodup := by
    rw [ho]; decide +kernel
  have hg := forcing_kept hnd hr hs
  have hfor : d1.source.isForcing = true := by rw [hg]; rfl
  have hser : ∀ n ∈ writerSeries true, ∃ a, d1.results.get? n = some a ∧
      a.length = (pyRange d1.nystart (d1.nyend + 1)).length := by
    intro n hn
    refine results_len hnd hr ?_
    rw [ho]
    have : ∀ n ∈ writerSeries true, n ∈ udmOutputs.map Prod.fst ++ forcOutputList := by decide +kernel
    exact this n hn
  have hdf := dataFiles_ok (fmt := fmt) (cwd := cwd) (c := c) (d := d1) (by
    rw [hfor]
    intro n hn
    obtain ⟨a, ha, -⟩ := hser n hn
    exact ⟨a, ha⟩)
  rw [hfor, if_pos rfl] at hdf
  obtain ⟨l, hl⟩ : ∃ l, l = seriesFiles ++ [("forc", ["Total_forcing"])] := ⟨_, rfl⟩
  obtain ⟨ks, hks⟩ : ∃ ks : List (String × Grid), ks = l.map (fun s => (s.1, gridOf fmt d1 s.2)) := ⟨_, rfl⟩
  have hw : runFiles fmt cwd c oops tops d1 = (named c cwd ks, .ok d1) := by
    unfold runFiles handlerFiles
    rw [hg]
    simp only
    rw [hdf, hks, hl]
    rfl
  refine ⟨_, hw, ?_⟩
  have hkind : ∀ x ∈ l, x.1 ∈ ["forc", "ohc", "rib", "temp", "sunvolc"] := by rw [hl]; decide
  have hkinds : ∀ k ∈ ks, k.1 ∈ fileKinds := by
    intro k hk
    rw [hks] at hk
    obtain ⟨x, hx, rfl⟩ := List.mem_map.1 hk
    exact (by decide : ∀ s ∈ ["forc", "ohc", "rib", "temp", "sunvolc"], s ∈ fileKinds) _ (hkind x hx)
  have huniq : ∀ x ∈ l, ∀ y ∈ l, x.1 = y.1 → x = y := by rw [hl]; decide
  rw [← hl]
  refine ⟨?_, ?_⟩
  · intro q hq
    apply onDisk_other
    intro w hw e
    obtain ⟨k, hk, rfl⟩ := List.mem_map.1 hw
    rw [hks] at hk
    obtain ⟨x, hx, rfl⟩ := List.mem_map.1 hk
    exact hq x.1 (hkind x hx) e
  · intro x hx
    have hn : ∀ n ∈ x.2, n ∈ writerSeries true :=
      (by rw [hl]; decide : ∀ x ∈ l, ∀ n ∈ x.2, n ∈ writerSeries true) x hx
    refine ⟨gridOf fmt d1 x.2, onDisk_kind hkinds ?_ ?_ fs, ?_, ?_⟩
    · rw [hks]
      exact List.mem_map.2 ⟨x, hx, rfl⟩
    · intro k hk e
      rw [hks] at hk
      obtain ⟨y, hy, rfl⟩ := List.mem_map.1 hk
      rw [huniq y hy x hx e]
    · unfold gridOf
      simp only
      rw [columnsOf_toCsv]
      · rfl
      · intro k hk
        rcases List.mem_cons.1 hk with rfl | h
        · simp [yearCol]
        · obtain ⟨n, hnm, rfl⟩ := List.mem_map.1 h
          obtain ⟨a, ha, hl⟩ := hser n (hn n hnm)
          simp [numCol, ha, hl]
    · intro n hnm
      obtain ⟨a, ha, -⟩ := hser n (hn n hnm)
      exact ⟨a, ha⟩

/-! ## Only these files, whatever happens -/

omit [Add F] [Sub F] [Mul F] [Div F] [Neg F] [OfScientific F] [LT F] [DecidableLT F] [MathFn F] in
theorem writeGrids_paths {fmt : F → String} {cwd : String} {c : OutCfg} {d : Driver F κ} :
    ∀ {l : List (String × List String)}, (∀ s ∈ l, s.1 ∈ fileKinds) →
      ∀ w ∈ (writeGrids fmt cwd c d l).1, ∃ s ∈ fileKinds, w.1 = c.path cwd s := by
  intro l
  induction l with
  | nil => intro _ w hw; cases hw
  | cons s l ih =>
    intro h w hw
    unfold writeGrids at hw
    split at hw
    · cases hw
    · rcases List.mem_cons.1 hw with rfl | hw
      · exact ⟨s.1, h s List.mem_cons_self, rfl⟩
      · exact ih (fun s hs => h s (List.mem_cons_of_mem _ hs)) w hw

/-- C83: however the writing ends, only files with the eight names of the run's own prefix are written. -/
theorem C83_only (fmt : F → String) (cwd : String) (c : OutCfg) (oops : OutputOps F κ) (tops : ThermalOps F τ)
    (d : Driver F κ) : ∀ w ∈ (runFiles fmt cwd c oops tops d).1, ∃ s ∈ fileKinds, w.1 = c.path cwd s := by
  have h1 : ∀ w ∈ (handlerFiles fmt cwd c oops tops d).1, ∃ s ∈ fileKinds, w.1 = c.path cwd s := by
    unfold handlerFiles
    split
    · intro w hw; cases hw
    · simp only
      split
      · rename_i r hr
        simp only [bind_eq_ok] at hr
        obtain ⟨⟨tab, d'⟩, -, y0, -, tf, -, em, -, te, -, tc, -, h⟩ := hr
        intro w hw
        cases tab <;> simp only [pure_ok, Except.ok.injEq] at h <;> subst h <;>
          simp only [List.cons_append, List.nil_append, List.mem_cons, List.not_mem_nil, or_false] at hw
        · rcases hw with rfl | rfl | rfl
          · exact ⟨"em", by decide, rfl⟩
          · exact ⟨"conc", by decide, rfl⟩
          · exact ⟨"forc", by decide, rfl⟩
        · rcases hw with rfl | rfl | rfl | rfl | rfl
          · exact ⟨"em", by decide, rfl⟩
          · exact ⟨"conc", by decide, rfl⟩
          · exact ⟨"forc", by decide, rfl⟩
          · exact ⟨"carbon", by decide, rfl⟩
          · exact ⟨"carbon", by decide, rfl⟩
      · intro w hw; cases hw
  have h2 : ∀ d' : Driver F κ, ∀ w ∈ (dataFiles fmt cwd c d').1, ∃ s ∈ fileKinds, w.1 = c.path cwd s := by
    intro d' w hw
    unfold dataFiles at hw
    split at hw
    · cases hw
    · refine writeGrids_paths ?_ w hw
      cases d'.source.isForcing <;> decide
  unfold runFiles
  simp only
  split
  · exact h1
  · intro w hw
    rcases List.mem_append.1 hw with hw | hw
    · exact h1 w hw
    · exact h2 _ w hw

/-- C83, several runs into the same folder: whatever a later run with another prefix does, and however it ends, the files
of an earlier run stay as they were. -/
theorem C83_separate (fmt : F → String) (cwd : String) (c c' : OutCfg) (oops : OutputOps F κ) (tops : ThermalOps F τ)
    (d : Driver F κ) (fs : Dict Grid) (hf : c.folder = c'.folder)
    (hp : startsWith (c.pre.getD "output") "/" = false) (hp' : startsWith (c'.pre.getD "output") "/" = false)
    (hne : c.pre.getD "output" ≠ c'.pre.getD "output") {s : String} (hs : s ∈ fileKinds) :
    (onDisk fs (runFiles fmt cwd c' oops tops d).1).get? (c.path cwd s) = fs.get? (c.path cwd s) := by
  apply onDisk_other
  intro w hw e
  obtain ⟨s', hs', h⟩ := C83_only fmt cwd c' oops tops d w hw
  rw [h] at e
  exact hne (C83_prefixes c' c cwd hf.symm hp' hp hs' hs e).1.symm

/-! ## The two-layer model -/

omit [Add F] [Sub F] [Mul F] [Div F] [Neg F] [OfScientific F] [LT F] [DecidableLT F] [MathFn F] in
theorem dataFiles_missing {fmt : F → String} {cwd : String} {c : OutCfg} {d : Driver F κ}
    (h : d.results.get? "RIB_N" = none) : dataFiles fmt cwd c d = ([], .error .keyError) := by
  unfold dataFiles
  rcases mapM_ok_or (fun s : String × List String => dataGrid fmt d s.2) (dataColumns.take 3) with ⟨rs, hk⟩ | ⟨e, he⟩
  · exfalso
    have e := mapM_ok.1 hk
    have : dataGrid fmt d ["RIB_glob", "RIB_N", "RIB_S"] ∈ (dataColumns.take 3).map (fun s => dataGrid fmt d s.2) :=
      List.mem_map.2 ⟨("rib", ["RIB_glob", "RIB_N", "RIB_S"]), by decide, rfl⟩
    rw [e] at this
    obtain ⟨g, -, hg⟩ := List.mem_map.1 this
    unfold dataGrid at hg
    have hg := hg.symm
    rw [bind_eq_ok] at hg
    obtain ⟨cols, hc, -⟩ := hg
    have e := mapM_ok.1 hc
    have h2 : (do
        let a ← d.results.getE "RIB_N"
        return numCol fmt ("RIB_N", a) : Except PyErr (String × List String)) ∈ cols.map Except.ok := by
      rw [← e]
      exact List.mem_map.2 ⟨"RIB_N", by simp, rfl⟩
    obtain ⟨x, -, hx⟩ := List.mem_map.1 h2
    unfold Dict.getE at hx
    rw [h] at hx
    cases hx
  · rw [he]
    obtain ⟨s, -, hs⟩ := mapM_error he
    unfold dataGrid at hs
    have : e = .keyError := by
      rcases mapM_ok_or (fun n => (do
        let a ← d.results.getE n
        return numCol fmt (n, a) : Except PyErr (String × List String))) s.2 with ⟨a, ha⟩ | ⟨e', he'⟩
      · simp only [] at hs
        rw [ha] at hs
        cases hs
      · simp only [] at hs
        rw [he'] at hs
        obtain ⟨n, -, hn⟩ := mapM_error he'
        have e1 : e' = e := by cases hs; rfl
        rw [← e1]
        unfold Dict.getE at hn
        split at hn
        · cases hn
        · simp only [bind_error, Except.error.injEq] at hn
          exact hn.symm
    rw [this]

/-- C83, the failure: in file mode a run of a new instance with the two-layer model ends with `KeyError` although its
results exist in memory: the files of emissions, concentrations and forcings are written, those of temperatures, heat
content, imbalance and natural forcings are not; a run driven by forcings leaves no file at all. -/
theorem C83_two_layer_false {cops : CarbonOps F κ} {oops : OutputOps F κ} {d d1 d2 : Driver F κ} {p : RunPams F}
    {t : TwoLayer.Pams F × TwoLayer.State F} {c : OutCfg} {r : Results F} (fmt : F → String) (cwd : String)
    (fs : Dict Grid) (hnew : d.results = []) (hr : run cops twoLayerOps d p = .ok (d1, t))
    (hres : runResults oops (twoLayerOps (F := F)) d1 c.carbon = .ok (r, d2)) :
    ∃ w, runFiles fmt cwd c oops (twoLayerOps (F := F)) d1 = (w, .error .keyError) ∧
      (∀ s ∈ ["ohc", "rib", "temp", "sunvolc"], (onDisk fs w).get? (c.path cwd s) = fs.get? (c.path cwd s)) ∧
      (d1.source.isForcing = true → w = []) ∧
      (d1.source.isForcing = false → ∀ s ∈ ["em", "conc", "forc"], ∃ file,
        (onDisk fs w).get? (c.path cwd s) = some file) := by
  have hnd : ((twoLayerOps (F := F)).outputs.map Prod.fst ++ forcOutputList).Nodup := by
    show (twoLayerOutputs.map Prod.fst ++ forcOutputList).Nodup
    decide +kernel
  have hno : d1.results.get? "RIB_N" = none := by
    refine results_only hnd hr ?_ (by rw [hnew]; rfl)
    show "RIB_N" ∉ twoLayerOutputs.map Prod.fst ++ forcOutputList
    decide +kernel
  cases hs : d1.source with
  | forcing f =>
    refine ⟨[], ?_, fun _ _ => rfl, fun _ => rfl, fun e => by cases e⟩
    unfold runFiles handlerFiles
    rw [hs]
    simp only
    rw [dataFiles_missing hno]
    rfl
  | handler g =>
    obtain ⟨tab, te, tc, tf, k1, -, -, -, -, -, -, -, k6⟩ := handlerFiles_spec fmt cwd hs hres
    obtain ⟨d1r, -⟩ := carbonTable_frame k1
    obtain ⟨ks, hks⟩ : ∃ ks : List (String × Grid), ks =
      [("em", toCsv g.years.length (yearFirst fmt te)), ("conc", toCsv g.years.length (yearFirst fmt tc)),
          ("forc", toCsv g.years.length (forcingCols fmt g tf))] ++ carbonGrids fmt g.years.length tab := ⟨_, rfl⟩
    rw [← hks] at k6
    have hk : ∀ k ∈ ks, k = ("em", toCsv g.years.length (yearFirst fmt te)) ∨
        k = ("conc", toCsv g.years.length (yearFirst fmt tc)) ∨
        k = ("forc", toCsv g.years.length (forcingCols fmt g tf)) ∨ k.1 = "carbon" := by
      intro k hk
      rw [hks] at hk
      rcases List.mem_append.1 hk with h | h
      · simp only [List.mem_cons, List.not_mem_nil, or_false] at h
        rcases h with h | h | h
        · exact Or.inl h
        · exact Or.inr (Or.inl h)
        · exact Or.inr (Or.inr (Or.inl h))
      · cases tab with
        | none => cases h
        | some x =>
          simp only [carbonGrids, List.mem_cons, List.not_mem_nil, or_false, or_self] at h
          exact Or.inr (Or.inr (Or.inr (by rw [h])))
    have hkinds : ∀ k ∈ ks, k.1 ∈ fileKinds := by
      intro k h
      rcases hk k h with rfl | rfl | rfl | h
      · simp [fileKinds]
      · simp [fileKinds]
      · simp [fileKinds]
      · rw [h]; decide
    have hmem : ∀ k ∈ [("em", toCsv g.years.length (yearFirst fmt te)), ("conc", toCsv g.years.length (yearFirst fmt tc)),
        ("forc", toCsv g.years.length (forcingCols fmt g tf))], k ∈ ks := by
      intro k hk
      rw [hks]
      exact List.mem_append_left _ hk
    refine ⟨named c cwd ks, ?_, ?_, fun e => (by cases e), ?_⟩
    · unfold runFiles
      rw [k6]
      simp only
      rw [dataFiles_missing (by rw [d1r]; exact hno)]
      simp only [Except.map, List.append_nil]
    · intro s hs'
      apply onDisk_other
      intro w hw e
      obtain ⟨k, h, rfl⟩ := List.mem_map.1 hw
      have e' : k.1 = s := C83_kinds c cwd (hkinds k h)
        ((by decide : ∀ s ∈ ["ohc", "rib", "temp", "sunvolc"], s ∈ fileKinds) s hs') e
      have hne : ∀ s ∈ ["ohc", "rib", "temp", "sunvolc"], s ∉ ["em", "conc", "forc", "carbon"] := by decide
      apply hne s hs'
      rw [← e']
      rcases hk k h with rfl | rfl | rfl | h
      · simp
      · simp
      · simp
      · rw [h]; simp
    · intro _ s hs'
      simp only [List.mem_cons, List.not_mem_nil, or_false] at hs'
      rcases hs' with rfl | rfl | rfl
      · refine ⟨_, onDisk_kind hkinds (hmem _ List.mem_cons_self) ?_ fs⟩
        intro k h e
        rcases hk k h with rfl | rfl | rfl | h
        · rfl
        · simp at e
        · simp at e
        · rw [h] at e; simp at e
      · refine ⟨_, onDisk_kind hkinds (hmem _ (List.mem_cons_of_mem _ List.mem_cons_self)) ?_ fs⟩
        intro k h e
        rcases hk k h with rfl | rfl | rfl | h
        · simp at e
        · rfl
        · simp at e
        · rw [h] at e; simp at e
      · refine ⟨_, onDisk_kind hkinds (hmem _ (List.mem_cons_of_mem _ (List.mem_cons_of_mem _ List.mem_cons_self))) ?_ fs⟩
        intro k h e
        rcases hk k h with rfl | rfl | rfl | h
        · simp at e
        · simp at e
        · rfl
        · rw [h] at e; simp at e

end

/-! ## Examples -/

section
open Verif.Exec Verif.Model.CarbonInst Verif.Lemmas.Tridiag

/-- A run of the diffusion model with the default carbon cycle and all kinds of gases. -/
theorem cut_case_diffusion (b : Bool) : ∃ (h0 : Handler ℝ (IR ℝ)) (d1 : Driver ℝ (IR ℝ)) (t : UDM.Model ℝ)
    (g : Handler ℝ (IR ℝ)), construct irOps (cutInputs b) richPam none = .ok h0 ∧
    RunTables (cutInputs b).concIn (cutInputs b).emis
      (Dict.set (Factory.checkPamset richPam) "conc_run" (.bool (cutInputs b).concRun)) 1998 2000 2003 ∧
    run irOps (udmOps exactSolver) (richDriver h0) ⟨some flatSet, none, none⟩ = .ok (d1, t) ∧ d1.source = .handler g := by
  obtain ⟨h1, h2, h3, h4, h5⟩ := rich_pams
  obtain ⟨h0, hc, h⟩ := C63_diffusion exactSolver_exact (carb := none) rich_gases (cut_tables b) h1 h2 h3 h4 (by decide)
    (.absent (by decide)) (by simp)
  obtain ⟨d1, hd⟩ := h (richDriver h0) ([] ++ [⟨some flatSet, none, none⟩]) rfl rfl rfl (rich_series h0) (by
    intro p hp
    simp only [List.nil_append, List.mem_singleton] at hp
    subst hp
    exact ⟨⟨_, flat_set, flat_safe⟩, h5, .absent (by decide), by simp⟩)
  obtain ⟨d, t, ha, hr⟩ := after_snoc hd
  have := after_nil ha
  subst this
  obtain ⟨g0, g, -, hg, -⟩ := run_handler_spec (rfl : (richDriver h0).source = .handler h0) hr
  exact ⟨h0, d1, t, g, hc, (cut_tables b).run h1 h2 h3, hr, hg⟩

theorem udm_names : ((udmOps (F := ℝ) exactSolver).outputs.map Prod.fst ++ forcOutputList).Nodup := by
  show (udmOutputs.map Prod.fst ++ forcOutputList).Nodup
  decide +kernel

/-- An emission-driven run with the diffusion model, carbon outputs asked for: the emission file begins with the years and
holds the table of the results; the carbon file exists. -/
example (fmt : ℝ → String) : ∃ (d1 d2 : Driver ℝ (IR ℝ)) (g : Handler ℝ (IR ℝ)) (r : Results ℝ) (f : Df ℝ)
    (w : List (String × Grid)) (file carbon : Grid),
    d1.source = .handler g ∧ runResults irOut (udmOps exactSolver) d1 true = .ok (r, d2) ∧
    runFiles fmt "/home/me" ⟨none, some "run1", true⟩ irOut (udmOps exactSolver) d1 = (w, .ok d2) ∧
    r.tables.get? "emissions" = some f ∧
    (onDisk [] w).get? "/home/me/output/run1_em.txt" = some file ∧
    columnsOf file = ("Year", g.years.map toString) :: f.cols.map (fun k => (k.1, k.2.map fmt)) ∧
    (onDisk [] w).get? "/home/me/output/run1_carbon.txt" = some carbon := by
  obtain ⟨h0, d1, t, g, hc, ht, hr, hg⟩ := cut_case_diffusion false
  obtain ⟨P, emis, E, T, ff, lu, temp, conc, tab, -, -, -, -, -, -, htab, -⟩ := C72_run (d0 := richDriver h0) yearLaw_real (cut_once false).1
    udm_names ht hc rfl .fresh hr hg rfl rich_co2 (by decide) rfl (by simp [udmOps, udmOutputs]) rfl
  have hj : NoJustOne richPam [] ⟨some flatSet, none, none⟩ := by
    refine ⟨by simp [richPam, Dict.keys], ?_⟩
    intro q hq
    simp only [List.nil_append, List.mem_singleton] at hq
    subst hq
    simp [Dict.keys]
  obtain ⟨r, hres, -, -⟩ := C77_tables (d0 := richDriver h0) (cut_once false).1 (cut_once false).2 udm_names ht hc rfl .fresh
    hr hg hj (l := 2012) rfl (by simp [richDriver]) (by simp [cutInputs, richInputs]) (by simp [cutInputs, richInputs]) htab
  obtain ⟨w, hw, -, h2, -, h4, -⟩ := C83_tables (c := ⟨none, some "run1", true⟩) fmt "/home/me" [] rfl hr hg hres
  obtain ⟨f, file, e1, e2, -, -, -, e3, -⟩ := h2 ("emissions", "em") (by simp)
  obtain ⟨tab', file', -, e4, -⟩ := h4 rfl
  exact ⟨d1, d1, g, r, f, w, file, file', hg, hres, hw, e1, e2, e3 (Or.inl (by decide)), e4⟩

/-- A forcing run of any number of years with the default parameters of the diffusion model. -/
example (fmt : ℝ → String) (n : ℕ) : ∃ (d1 : Driver ℝ Unit) (w : List (String × Grid)) (file : Grid),
    (onDisk [] w).get? "/data/x_forc.txt" = some file ∧ (onDisk [] w).get? "/data/x_em.txt" = none ∧
    columnsOf file = [("Year", (pyRange 2000 (2000 + n)).map toString),
      ("Total_forcing", ((d1.results.get? "Total_forcing").getD []).map fmt)] := by
  obtain ⟨d1, m, hr, -⟩ := hot_runs n
  obtain ⟨_, _, _, _, -, -, -, -, n1, n2, -⟩ := C40_run udm_names hr
  let oo : OutputOps ℝ Unit := ⟨fun k _ _ _ _ => .ok ([], k), fun _ => .ok 278⟩
  obtain ⟨w, -, h1, h2⟩ := C83_forcing_run (oops := oo) fmt "/home" ⟨some "/data", some "x", false⟩ [] rfl hr rfl
  obtain ⟨file, e1, e2, -⟩ := h2 ("forc", ["Total_forcing"]) (by simp)
  refine ⟨d1, w, file, e1, h1 _ (by decide), ?_⟩
  rw [e2, n1, n2]
  have e : (hotDriver n).nyend + 1 = 2000 + (n : ℤ) := by simp only [hotDriver]; ring
  rw [e]
  rfl

/-- A run of the two-layer model with all kinds of gases: its results exist, the emission file is written, the temperature
file is not. -/
example (fmt : ℝ → String) : ∃ (d1 : Driver ℝ (IR ℝ)) (r : Results ℝ) (w : List (String × Grid)) (file : Grid),
    runResults irOut twoLayerOps d1 false = .ok (r, d1) ∧
    runFiles fmt "/home/me" ⟨none, none, false⟩ irOut twoLayerOps d1 = (w, .error .keyError) ∧
    (onDisk [] w).get? "/home/me/output/output_em.txt" = some file ∧
    (onDisk [] w).get? "/home/me/output/output_temp.txt" = none := by
  obtain ⟨h0, d1, t, g, hc, ht, hr, hg⟩ := cut_case false
  obtain ⟨P, emis, E, T, ff, lu, temp, conc, tab, -, -, -, -, -, -, htab, -⟩ := C72_run (d0 := richDriver h0) yearLaw_real
    (cut_once false).1 twoLayer_names ht hc rfl .fresh hr hg rfl rich_co2 (by decide) rfl twoLayer_temperature twoLayer_first
  have hnone : carbonTable irOut twoLayerOps d1 false = .ok (none, d1) := by
    unfold carbonTable at htab ⊢
    rw [hg] at htab ⊢
    simp only [bind_eq_ok] at htab
    obtain ⟨fbs, h, -⟩ := htab
    simp only [h, bind_ok]
    rfl
  obtain ⟨r, hres, -, -⟩ := C77_tables (d0 := richDriver h0) (oops := irOut) (asked := false) (tab := none) (d2 := d1)
    (cut_once false).1 (cut_once false).2 twoLayer_names ht hc rfl .fresh hr hg cut_noJust (l := 2012) rfl
    (by simp [richDriver]) (by simp [cutInputs, richInputs]) (by simp [cutInputs, richInputs]) hnone
  obtain ⟨w, h1, h2, -, h4⟩ := C83_two_layer_false (c := ⟨none, none, false⟩) fmt "/home/me" [] rfl hr hres
  obtain ⟨file, h5⟩ := h4 (by rw [hg]; rfl) "em" (by simp)
  exact ⟨d1, r, w, file, hres, h1, h5, h2 "temp" (by simp)⟩

/-- A forcing run of the two-layer model leaves no file. -/
example (fmt : ℝ → String) (oops : OutputOps ℝ Unit) : ∃ (d1 : Driver ℝ Unit),
    runFiles fmt "/home/me" ⟨none, none, false⟩ oops (twoLayerOps (F := ℝ)) d1 = ([], .error .keyError) := by
  obtain ⟨d1, t, hr⟩ := exRf_runs
  have hs : d1.source = .forcing (.array [1, 2]) := forcing_kept twoLayer_nodup hr rfl
  obtain ⟨w, h1, -, h3, -⟩ := C83_two_layer_false (c := ⟨none, none, false⟩) (oops := oops) (r := ⟨[], d1.results⟩) (d2 := d1)
    fmt "/home/me" [] rfl hr (by unfold runResults; rw [hs])
  refine ⟨d1, ?_⟩
  rw [h1, h3 (by rw [hs]; rfl)]

/-- A second run with another prefix: the temperature file of the first stays. -/
example (fmt : ℝ → String) (d : Driver ℝ (IR ℝ)) (file : Grid) :
    (onDisk [("/w/out/a_temp.txt", file)] (runFiles fmt "/w" ⟨some "out", some "b", true⟩ irOut (twoLayerOps (F := ℝ)) d).1).get?
      "/w/out/a_temp.txt" = some file :=
  C83_separate fmt "/w" ⟨some "out", some "a", false⟩ ⟨some "out", some "b", true⟩ irOut twoLayerOps d
    [("/w/out/a_temp.txt", file)] rfl (by decide) (by decide) (by decide) (s := "temp") (by decide)

end
end Verif.Props
