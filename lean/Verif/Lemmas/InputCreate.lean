import Verif.Lemmas.InputHandler
import Verif.Lemmas.Rerun
import Verif.Lemmas.Utils
import Verif.Lemmas.CarbonRerun

/-! # What the input handler stores, and what the model object is built from -/

namespace Verif.Model.InputHandler
open Verif.Py Verif.Py.Dict Verif.Model Verif.Model.Handler Verif.Model.Driver

section
variable {F κ τ : Type} [Add F] [Sub F] [Mul F] [Div F] [Neg F] [OfScientific F] [LT F] [DecidableLT F] [MathFn F]

/-- The stages of the constructor. -/
structure Stages (fs : Files F) (c : Dict (CfgVal F)) (ih : Handler F) where
  cfg2 : Dict (CfgVal F)
  ih1 : Handler F
  defaults : setDefaults fs (cutAndCheckCfg requiredCfg c usedCfg) ih.nystart ih.nyend = .ok cfg2
  years1 : cfgI (cutAndCheckCfg requiredCfg c usedCfg) "nystart" = .ok ih.nystart
  years2 : cfgI (cutAndCheckCfg requiredCfg c usedCfg) "nyend" = .ok ih.nyend
  natural : [("nat_ch4", "CH4"), ("nat_n2o", "N2O")].foldlM (naturalDefault fs)
    { cfg := cfg2, nystart := ih.nystart, nyend := ih.nyend } = .ok ih1
  files : ih1.cfg.mapM (checkFile fs) = .ok ih.cfg
  gaspam : checkGaspam fs ih = .ok ()

theorem create_stages {fs : Files F} {c : Dict (CfgVal F)} {ih : Handler F} (h : create fs c = .ok ih) :
    Nonempty (Stages fs c ih) := by
  unfold create at h
  simp only [bind_eq_ok] at h
  obtain ⟨ns, h1, ne, h2, cfg2, h3, ih1, h4, cfg3, h5, ⟨⟩, h6, h7⟩ := h
  rw [pure_ok, Except.ok.injEq] at h7
  have hy : ih1.nystart = ns ∧ ih1.nyend = ne := by
    rw [List.foldlM_cons, bind_eq_ok] at h4
    obtain ⟨a, ha, h4⟩ := h4
    rw [List.foldlM_cons, bind_eq_ok] at h4
    obtain ⟨b, hb, h4⟩ := h4
    rw [List.foldlM_nil, pure_ok, Except.ok.injEq] at h4
    subst h4
    have A := naturalDefault_spec ha
    have B := naturalDefault_spec hb
    exact ⟨B.1.trans A.1, B.2.1.trans A.2.1⟩
  obtain ⟨e1, e2⟩ := hy
  subst h7
  exact ⟨⟨cfg2, ih1, by simpa only [e1, e2] using h3, by simpa only [e1] using h1, by simpa only [e2] using h2,
    by simpa only [e1, e2] using h4, h5, h6⟩⟩

/-- The two turns of the natural-emission default. -/
theorem natural_turns {fs : Files F} {ih0 ih1 : Handler F}
    (h : [("nat_ch4", "CH4"), ("nat_n2o", "N2O")].foldlM (naturalDefault fs) ih0 = .ok ih1) :
    ∃ a, naturalDefault fs ih0 ("nat_ch4", "CH4") = .ok a ∧ naturalDefault fs a ("nat_n2o", "N2O") = .ok ih1 := by
  rw [List.foldlM_cons, bind_eq_ok] at h
  obtain ⟨a, ha, h⟩ := h
  rw [List.foldlM_cons, bind_eq_ok] at h
  obtain ⟨b, hb, h⟩ := h
  rw [List.foldlM_nil, pure_ok, Except.ok.injEq] at h
  subst h
  exact ⟨a, ha, hb⟩

theorem natural_get {fs : Files F} {ih0 ih1 : Handler F}
    (h : [("nat_ch4", "CH4"), ("nat_n2o", "N2O")].foldlM (naturalDefault fs) ih0 = .ok ih1) {k : String}
    (h1 : k ≠ "nat_ch4_data") (h2 : k ≠ "nat_n2o_data") : Dict.get? ih1.cfg k = Dict.get? ih0.cfg k := by
  obtain ⟨a, ha, hb⟩ := natural_turns h
  rw [(naturalDefault_spec hb).2.2.1 k h2, (naturalDefault_spec ha).2.2.1 k h1]

/-- What the file check does with a key. -/
theorem files_get {fs : Files F} {cfg cfg' : Dict (CfgVal F)} (h : cfg.mapM (checkFile fs) = .ok cfg') (k : String) :
    (Dict.get? cfg k = none → Dict.get? cfg' k = none) ∧
    (∀ v, Dict.get? cfg k = some v → ∃ v', checkFile fs (k, v) = .ok (k, v') ∧ Dict.get? cfg' k = some v') := by
  have := get?_mapM (checkFile_key fs) h k
  constructor
  · intro e; rw [e] at this; exact this
  · intro v e; rw [e] at this; exact this

omit [Add F] [Sub F] [Mul F] [Div F] [Neg F] [OfScientific F] [LT F] [DecidableLT F] [MathFn F] in
theorem checkFile_present {fs : Files F} {k p : String} {v' : CfgVal F} (hp : fs.present p = true)
    (h : checkFile fs (k, .val (.str p)) = .ok (k, v')) : v' = .val (.str p) := by
  unfold checkFile at h
  split at h
  · simp only [CfgVal.path, bind_eq_ok, Except.ok.injEq] at h
    obtain ⟨q, rfl, h⟩ := h
    rw [if_pos hp, pure_ok, Except.ok.injEq, Prod.mk.injEq] at h
    exact h.2.symm
  · rw [Except.ok.injEq, Prod.mk.injEq] at h
    exact h.2.symm

omit [Add F] [Sub F] [Mul F] [Div F] [Neg F] [OfScientific F] [LT F] [DecidableLT F] [MathFn F] in
theorem checkFile_other {fs : Files F} {k : String} {v v' : CfgVal F}
    (hk : "file".toList.isSuffixOf k.toList = false) (h : checkFile fs (k, v) = .ok (k, v')) : v' = v := by
  unfold checkFile at h
  rw [if_neg (by rw [hk]; decide), Except.ok.injEq, Prod.mk.injEq] at h
  exact h.2.symm

omit [Add F] [Sub F] [Mul F] [Div F] [Neg F] [OfScientific F] [LT F] [DecidableLT F] [MathFn F] in
/-- The keys of the inputs are kept, and are not keys with a default. -/
theorem input_keys {what : String} (hw : what ∈ readMethods) :
    (what ++ "_file" ∈ Dict.keys (usedCfg (F := F)) ∧ what ++ "_file" ∉ Dict.keys (requiredCfg (F := F))) ∧
    (what ++ "_data" ∈ Dict.keys (usedCfg (F := F)) ∧ what ++ "_data" ∉ Dict.keys (requiredCfg (F := F))) := by
  have e1 : Dict.keys (usedCfg (F := F)) = ["sunvolc", "conc_run", "idtm"] ++
      readMethods.flatMap (fun k => [k ++ "_file", k ++ "_data"]) := by
    rfl
  have e2 : Dict.keys (requiredCfg (F := F)) = ["nystart", "nyend", "emstart", "carbon_cycle_model", "thermal_model"] := rfl
  rw [e1, e2]
  revert what
  decide +kernel

omit [Add F] [Sub F] [Mul F] [Div F] [Neg F] [OfScientific F] [LT F] [DecidableLT F] [MathFn F] in
theorem input_suffix {what : String} (hw : what ∈ readMethods) :
    "file".toList.isSuffixOf (what ++ "_file").toList = true ∧ "file".toList.isSuffixOf (what ++ "_data").toList = false := by
  revert what
  decide +kernel

theorem cut_volc (c : Dict (CfgVal F)) :
    Dict.get? (cutAndCheckCfg requiredCfg c usedCfg) "rf_volc_file" = none ∧
    Dict.get? (cutAndCheckCfg requiredCfg c usedCfg) "rf_volc_data" = none := by
  have e1 : Dict.keys (usedCfg (F := F)) = ["sunvolc", "conc_run", "idtm"] ++
      readMethods.flatMap (fun k => [k ++ "_file", k ++ "_data"]) := by
    rfl
  have e2 : Dict.keys (requiredCfg (F := F)) = ["nystart", "nyend", "emstart", "carbon_cycle_model", "thermal_model"] := rfl
  constructor
  · exact get?_cutAndCheckCfg_none (by rw [e2]; decide) (by rw [e1]; decide +kernel)
  · exact get?_cutAndCheckCfg_none (by rw [e2]; decide) (by rw [e1]; decide +kernel)

theorem cut_sunvolc {c : Dict (CfgVal F)} (hc : WF c) :
    sunvolcOn (cutAndCheckCfg requiredCfg c usedCfg) = sunvolcOn c := by
  have e1 : Dict.keys (usedCfg (F := F)) = ["sunvolc", "conc_run", "idtm"] ++
      readMethods.flatMap (fun k => [k ++ "_file", k ++ "_data"]) := by
    rfl
  have e2 : Dict.keys (requiredCfg (F := F)) = ["nystart", "nyend", "emstart", "carbon_cycle_model", "thermal_model"] := rfl
  unfold sunvolcOn
  rw [get?_cutAndCheckCfg hc (by rw [e2]; decide) (by rw [e1]; decide +kernel)]

omit [Add F] [Sub F] [Mul F] [Div F] [Neg F] [OfScientific F] [LT F] [DecidableLT F] [MathFn F] in
theorem file_not_data {what : String} (hw : what ∈ readMethods) : what ++ "_file" ∉ defaultData := by
  revert what
  decide +kernel

omit [Add F] [Sub F] [Mul F] [Div F] [Neg F] [OfScientific F] [LT F] [DecidableLT F] [MathFn F] in
theorem data_not_file {what : String} (hw : what ∈ readMethods) : what ++ "_data" ∉ defaultFiles := by
  revert what
  decide +kernel

omit [Add F] [Sub F] [Mul F] [Div F] [Neg F] [OfScientific F] [LT F] [DecidableLT F] [MathFn F] in
theorem data_not_default {what : String} (hw : what ∈ readMethods) (hs : what ∉ ["rf_sun", "rf_volc_n", "rf_volc_s"]) :
    what ++ "_data" ∉ defaultData := by
  revert what
  decide +kernel

/-- A configured file is what the defaults leave. -/
theorem defaults_file {fs : Files F} {c cfg2 : Dict (CfgVal F)} (hc : WF c) {ns ne : ℤ}
    (h : setDefaults fs (cutAndCheckCfg requiredCfg c usedCfg) ns ne = .ok cfg2) {what : String} (hw : what ∈ readMethods)
    {v : CfgVal F} (hv : Dict.get? c (what ++ "_file") = some v) : Dict.get? cfg2 (what ++ "_file") = some v := by
  obtain ⟨⟨k1, k2⟩, -⟩ := input_keys (F := F) hw
  have e := get?_cutAndCheckCfg hc k2 k1
  by_cases hf : what ++ "_file" ∈ defaultFiles
  · exact setDefaults_file (cut_volc c).1 (cut_volc c).2 h hf (e.trans hv)
  · rw [setDefaults_other (cut_volc c).1 (cut_volc c).2 h hf (file_not_data hw), e, hv]

/-- No file is put in place of data the user gave. -/
theorem defaults_nofile {fs : Files F} {c cfg2 : Dict (CfgVal F)} (hc : WF c) {ns ne : ℤ}
    (h : setDefaults fs (cutAndCheckCfg requiredCfg c usedCfg) ns ne = .ok cfg2) {what : String} (hw : what ∈ readMethods)
    (hf : Dict.get? c (what ++ "_file") = none) {v : CfgVal F} (hv : Dict.get? c (what ++ "_data") = some v) :
    Dict.get? cfg2 (what ++ "_file") = none := by
  have K : ∀ w ∈ readMethods, Dict.get? (cutAndCheckCfg requiredCfg c usedCfg) (w ++ "_file") = Dict.get? c (w ++ "_file") ∧
      Dict.get? (cutAndCheckCfg requiredCfg c usedCfg) (w ++ "_data") = Dict.get? c (w ++ "_data") := by
    intro w hw
    obtain ⟨⟨k1, k2⟩, k3, k4⟩ := input_keys (F := F) hw
    exact ⟨get?_cutAndCheckCfg hc k2 k1, get?_cutAndCheckCfg hc k4 k3⟩
  have V := cut_volc c
  generalize cutAndCheckCfg requiredCfg c usedCfg = cfg at *
  by_cases hd : what ++ "_file" ∈ defaultFiles
  · have hl : ∀ k, k = what ++ "_file" → Dict.get? (lucDefault fs cfg) k = none := by
      rintro k rfl
      rw [lucDefault_get, if_neg, (K what hw).1, hf]
      rintro ⟨e, -, e2⟩
      have : what = "rf_luc" := by revert e; clear * - hw; revert what; decide +kernel
      subst this
      exact absurd (e2.symm.trans ((K "rf_luc" hw).2.trans hv)) (by simp)
    have hs : ∀ k, k = what ++ "_file" → Dict.get? (sunDefault fs (lucDefault fs cfg)) k = none := by
      rintro k rfl
      rw [sunDefault_get, if_neg, hl _ rfl]
      rintro ⟨e, -, e2⟩
      have : what = "rf_sun" := by revert e; clear * - hw; revert what; decide +kernel
      subst this
      rw [lucDefault_get, if_neg (fun e => absurd e.1 (by decide))] at e2
      exact absurd (e2.symm.trans ((K "rf_sun" hw).2.trans hv)) (by simp)
    unfold setDefaults at h
    simp only at h
    split at h
    · rw [Except.ok.injEq] at h
      subst h
      have g : ∀ k, k ≠ "rf_luc_file" → k ≠ "rf_sun_file" → Dict.get? (sunDefault fs (lucDefault fs cfg)) k = Dict.get? cfg k := by
        intro k e1 e2
        rw [sunDefault_get, if_neg (fun e => e2 e.1), lucDefault_get, if_neg (fun e => e1 e.1)]
      rw [(volcDefault_get fs (by rw [g _ (by decide) (by decide)]; exact V.1)
        (by rw [g _ (by decide) (by decide)]; exact V.2) _).2, hs _ rfl]
      rintro ⟨hn, e⟩
      have e' : what = "rf_volc_n" ∨ what = "rf_volc_s" := by revert e; clear * - hw; revert what; decide +kernel
      rcases e' with rfl | rfl
      · have := hn "rf_volc_n_data" (by simp)
        rw [g _ (by decide) (by decide)] at this
        exact absurd (this.symm.trans ((K "rf_volc_n" hw).2.trans hv)) (by simp)
      · have := hn "rf_volc_s_data" (by simp)
        rw [g _ (by decide) (by decide)] at this
        exact absurd (this.symm.trans ((K "rf_volc_s" hw).2.trans hv)) (by simp)
    · have hn := file_not_data hw
      unfold defaultData at hn
      simp only [List.mem_cons, List.not_mem_nil, or_false, not_or] at hn
      rw [(sunVolcZero_get h).2, if_neg hn.2.2, if_neg (by rintro (e | e); exacts [hn.1 e, hn.2.1 e]), hl _ rfl]
  · rw [setDefaults_other V.1 V.2 h hd (file_not_data hw), (K what hw).1, hf]

/-- Data are kept: all of them with `sunvolc` on, and those that are not solar or volcanic with `sunvolc` off. -/
theorem defaults_data {fs : Files F} {c cfg2 : Dict (CfgVal F)} (hc : WF c) {ns ne : ℤ}
    (h : setDefaults fs (cutAndCheckCfg requiredCfg c usedCfg) ns ne = .ok cfg2) {what : String} (hw : what ∈ readMethods)
    (hs : sunvolcOn c = true ∨ what ∉ ["rf_sun", "rf_volc_n", "rf_volc_s"]) :
    Dict.get? cfg2 (what ++ "_data") = Dict.get? c (what ++ "_data") := by
  obtain ⟨-, k1, k2⟩ := input_keys (F := F) hw
  have e := get?_cutAndCheckCfg hc k2 k1
  have V := cut_volc c
  rcases hs with hs | hs
  · rw [setDefaults_data V.1 V.2 h ((cut_sunvolc hc).trans hs) (data_not_file hw), e]
  · rw [setDefaults_other V.1 V.2 h (data_not_file hw) (data_not_default hw hs), e]

/-- An input that is neither configured nor has a default stays away. -/
theorem defaults_none {fs : Files F} {c cfg2 : Dict (CfgVal F)} (hc : WF c) {ns ne : ℤ}
    (h : setDefaults fs (cutAndCheckCfg requiredCfg c usedCfg) ns ne = .ok cfg2) {what : String} (hw : what ∈ readMethods)
    (hd : what ++ "_file" ∉ defaultFiles) (hf : Dict.get? c (what ++ "_file") = none) :
    Dict.get? cfg2 (what ++ "_file") = none := by
  obtain ⟨⟨k1, k2⟩, -⟩ := input_keys (F := F) hw
  rw [setDefaults_other (cut_volc c).1 (cut_volc c).2 h hd (file_not_data hw), get?_cutAndCheckCfg hc k2 k1, hf]

/-- The data keys of the natural emissions. -/
def naturalData : List String := ["nat_ch4_data", "nat_n2o_data"]

/-- What is stored under a key that is not one of natural emission data. -/
theorem stored {fs : Files F} {c : Dict (CfgVal F)} {ih : Handler F} (S : Stages fs c ih) {k : String}
    (hk : k ∉ naturalData) : (Dict.get? S.cfg2 k = none → Dict.get? ih.cfg k = none) ∧
    (∀ v, Dict.get? S.cfg2 k = some v → ∃ v', checkFile fs (k, v) = .ok (k, v') ∧ Dict.get? ih.cfg k = some v') := by
  unfold naturalData at hk
  simp only [List.mem_cons, List.not_mem_nil, or_false, not_or] at hk
  have e : Dict.get? S.ih1.cfg k = Dict.get? S.cfg2 k := natural_get S.natural hk.1 hk.2
  rw [← e]
  exact files_get S.files k

omit [Add F] [Sub F] [Mul F] [Div F] [Neg F] [OfScientific F] [LT F] [DecidableLT F] [MathFn F] in
theorem file_not_natural {what : String} (hw : what ∈ readMethods) : what ++ "_file" ∉ naturalData := by
  revert what
  decide +kernel

omit [Add F] [Sub F] [Mul F] [Div F] [Neg F] [OfScientific F] [LT F] [DecidableLT F] [MathFn F] in
theorem data_not_natural {what : String} (hw : what ∈ readMethods) (h1 : what ≠ "nat_ch4") (h2 : what ≠ "nat_n2o") :
    what ++ "_data" ∉ naturalData := by
  revert what
  decide +kernel

/-- Natural emissions given by the user are kept. -/
theorem natural_kept {fs : Files F} {ih0 ih1 : Handler F}
    (h : [("nat_ch4", "CH4"), ("nat_n2o", "N2O")].foldlM (naturalDefault fs) ih0 = .ok ih1) {what : String}
    (hw : what = "nat_ch4" ∨ what = "nat_n2o") (ho : optionalPam ih0 what = true) :
    Dict.get? ih1.cfg (what ++ "_data") = Dict.get? ih0.cfg (what ++ "_data") := by
  obtain ⟨a, ha, hb⟩ := natural_turns h
  rcases hw with rfl | rfl
  · rw [(naturalDefault_spec hb).2.2.1 _ (by decide), (naturalDefault_spec ha).2.2.2.1 ho]
  · have e : optionalPam a "nat_n2o" = true := by
      rw [← ho]
      unfold optionalPam Dict.has
      rw [(naturalDefault_spec ha).2.2.1 _ (by decide), (naturalDefault_spec ha).2.2.1 _ (by decide)]
    rw [(naturalDefault_spec hb).2.2.2.1 e, (naturalDefault_spec ha).2.2.1 _ (by decide)]

theorem getData_file {fs : Files F} {ih : Handler F} {what p : String} (hw : what ∈ readMethods)
    (h : Dict.get? ih.cfg (what ++ "_file") = some (.val (.str p))) : getData fs ih what = readFile fs ih what p := by
  unfold getData
  rw [h]
  simp only
  rw [if_neg (fun e => e hw)]
  rfl

theorem getData_data {fs : Files F} {ih : Handler F} {what : String} {d : Data F}
    (hf : Dict.get? ih.cfg (what ++ "_file") = none) (h : Dict.get? ih.cfg (what ++ "_data") = some (.data d)) :
    getData fs ih what = .ok d := by
  unfold getData
  rw [hf, h]

theorem getData_none {fs : Files F} {ih : Handler F} {what : String}
    (hf : Dict.get? ih.cfg (what ++ "_file") = none) (h : Dict.get? ih.cfg (what ++ "_data") = none) :
    getData fs ih what = .error .keyError := by
  unfold getData
  rw [hf, h]

/-! ## The model object -/

/-- The keys `CICEROSCM.__init__` writes into the configuration. -/
def driverKeys : List String := ["nystart", "nyend", "emstart", "idtm", "carbon_cycle_model", "thermal_model"]

omit [Add F] [Sub F] [Mul F] [Div F] [Neg F] [OfScientific F] [LT F] [DecidableLT F] [MathFn F] in
theorem WF_driverRequired : WF (Factory.driverRequired (F := F)) := by
  unfold WF
  show ["nystart", "nyend", "emstart", "idtm"].Nodup
  decide

omit [Add F] [Sub F] [Mul F] [Div F] [Neg F] [OfScientific F] [LT F] [DecidableLT F] [MathFn F] in
theorem WF_driverCfg (d : Dict (PyVal F)) : WF (Factory.driverCfg d) :=
  WF_checkNumericPamset _ _ (CarbonInst.WF_cut _ _)

omit [Add F] [Sub F] [Mul F] [Div F] [Neg F] [OfScientific F] [LT F] [DecidableLT F] [MathFn F] in
theorem keys_driverCfg (d : Dict (PyVal F)) {k : String} (h : k ∈ Dict.keys (Factory.driverCfg d)) : k ∈ driverKeys := by
  rw [← get?_isSome_iff] at h
  obtain ⟨v, hv⟩ := h
  unfold Factory.driverCfg cutAndCheckPamset at hv
  rw [get?_checkNumericPamset WF_driverRequired] at hv
  have hk : k ∈ Dict.keys (usedKeys (Factory.driverRequired (F := F)) Factory.driverUsed) := by
    split at hv
    · rename_i dflt hd
      rw [mem_keys_usedKeys]
      exact Or.inr ((get?_isSome_iff _ _).1 ⟨_, hd⟩)
    · exact ((Driver.mem_keys_cut _ _ _).1 ((get?_isSome_iff _ _).1 ⟨_, hv⟩)).1
  rw [mem_keys_usedKeys] at hk
  have e1 : Dict.keys (Factory.driverUsed (F := F)) = ["carbon_cycle_model", "thermal_model"] := rfl
  have e2 : Dict.keys (Factory.driverRequired (F := F)) = ["nystart", "nyend", "emstart", "idtm"] := rfl
  rw [e1, e2] at hk
  unfold driverKeys
  simp only [List.mem_cons, List.not_mem_nil, or_false] at hk ⊢
  clear * - hk
  tauto

omit [Add F] [Sub F] [Mul F] [Div F] [Neg F] [OfScientific F] [LT F] [DecidableLT F] [MathFn F] in
/-- The required values of the driver are numbers. -/
theorem driverCfg_num (d : Dict (PyVal F)) {k : String} (h : k ∈ ["nystart", "nyend", "emstart", "idtm"]) :
    ∃ v, Dict.get? (Factory.driverCfg d) k = some v ∧ v.isNum = true := by
  unfold Factory.driverCfg cutAndCheckPamset
  rw [get?_checkNumericPamset WF_driverRequired]
  have : ∃ n : ℤ, Dict.get? (Factory.driverRequired (F := F)) k = some (.int n) := by
    simp only [List.mem_cons, List.not_mem_nil, or_false] at h
    rcases h with rfl | rfl | rfl | rfl
    exacts [⟨1750, rfl⟩, ⟨2100, rfl⟩, ⟨1850, rfl⟩, ⟨24, rfl⟩]
  obtain ⟨n, hn⟩ := this
  rw [hn]
  simp only
  split
  · rename_i v _
    by_cases hv : v.isNum = true
    · exact ⟨v, by rw [if_pos hv], hv⟩
    · exact ⟨.int n, by rw [if_neg hv], rfl⟩
  · exact ⟨.int n, rfl, rfl⟩

omit [Add F] [Sub F] [Mul F] [Div F] [Neg F] [OfScientific F] [LT F] [DecidableLT F] [MathFn F] in
theorem checkNumericCfg_keep {req d : Dict (CfgVal F)} {k : String} {v : CfgVal F} (h : Dict.get? d k = some v)
    (hv : v.isNum = true) : Dict.get? (checkNumericCfg req d) k = some v := by
  unfold checkNumericCfg
  induction req generalizing d with
  | nil => exact h
  | cons p req ih =>
    rw [List.foldl_cons]
    apply ih
    by_cases e : p.1 = k
    · rw [e, h]
      simp only [hv, Bool.not_true, Bool.false_eq_true, if_false]
      exact h
    · exact (get?_numCfg_step d p e).trans h

omit [Add F] [Sub F] [Mul F] [Div F] [Neg F] [OfScientific F] [LT F] [DecidableLT F] [MathFn F] in
theorem WF_update (d e : Dict (CfgVal F)) (h : WF d) : WF (Dict.update d e) := by
  unfold Dict.update
  induction e generalizing d with
  | nil => exact h
  | cons p e ih =>
    rw [List.foldl_cons]
    exact ih _ (WF_set _ _ _ h)

omit [Add F] [Sub F] [Mul F] [Div F] [Neg F] [OfScientific F] [LT F] [DecidableLT F] [MathFn F] in
theorem get?_vals (d : Dict (PyVal F)) (k : String) :
    Dict.get? (d.map (fun kv => (kv.1, CfgVal.val kv.2)) : Dict (CfgVal F)) k = (Dict.get? d k).map CfgVal.val := by
  induction d with
  | nil => rfl
  | cons p d ih =>
    obtain ⟨a, v⟩ := p
    rw [List.map_cons, get?_cons, get?_cons, ih]
    split <;> rfl

/-- What a successful construction of the model object consists of. -/
structure Built (cops : CarbonOps F κ) (fs : Files F) (c : Dict (CfgVal F)) (d : Driver F κ) where
  cfg : Dict (CfgVal F)
  ih : Handler F
  create : create fs cfg = .ok ih
  wf : WF cfg
  same : ∀ k, k ∉ driverKeys → Dict.get? cfg k = Dict.get? c k
  start : d.nystart = ih.nystart
  stop : d.nyend = ih.nyend
  nonneg : d.nystart ≤ d.nyend + 1
  volcN : getData fs ih "rf_volc_n" = .ok (.rows d.volcN)
  volcS : getData fs ih "rf_volc_s" = .ok (.rows d.volcS)
  sun : ∃ rs, getData fs ih "rf_sun" = .ok (.rows rs) ∧ firstColumn rs = .ok d.sun
  luc : ∃ rs, getData fs ih "rf_luc" = .ok (.rows rs) ∧ firstColumn rs = .ok d.luc
  source : buildSource cops fs ih (Factory.driverCfg (plain c)) (plain cfg) = .ok d.source

omit [Add F] [Sub F] [Mul F] [Div F] [Neg F] [OfScientific F] [LT F] [DecidableLT F] [MathFn F] in
theorem asRows_ok {x : Data F} {rs : List (List F)} (h : asRows x = .ok rs) : x = .rows rs := by
  unfold asRows at h
  split at h
  · rw [Except.ok.injEq] at h; rw [h]
  · cases h

theorem built {cops : CarbonOps F κ} {tops : ThermalOps F τ} {fs : Files F} {c : Dict (CfgVal F)} {d : Driver F κ}
    (hc : WF c) (h : build cops tops fs c = .ok d) : Nonempty (Built cops fs c d) := by
  unfold build at h
  simp only [bind_eq_ok] at h
  obtain ⟨ih, h1, ns, h2, ne, h3, src, h4, x1, g1, vn, a1, x2, g2, vs, a2, x3, g3, rs, a3, sun, f3, x4, g4, rl, a4, luc, f4,
    res, h5, h6⟩ := h
  rw [pure_ok, Except.ok.injEq] at h6
  have hwf : WF (Dict.update c ((Factory.driverCfg (plain c)).map (fun kv => (kv.1, CfgVal.val kv.2)))) := WF_update _ _ hc
  have hwf2 : WF ((Factory.driverCfg (plain c)).map (fun kv => (kv.1, CfgVal.val kv.2)) : Dict (CfgVal F)) := by
    have := WF_driverCfg (plain c)
    unfold WF Dict.keys at *
    rw [List.map_map]
    exact this
  have hget : ∀ k, Dict.get? (Dict.update c ((Factory.driverCfg (plain c)).map (fun kv => (kv.1, CfgVal.val kv.2)))) k =
      ((Dict.get? (Factory.driverCfg (plain c)) k).map CfgVal.val).or (Dict.get? c k) := by
    intro k
    rw [get?_update, get?_reverse_of_WF hwf2, get?_vals]
  obtain ⟨S⟩ := create_stages h1
  have yr : ∀ k ∈ ["nystart", "nyend"], ∀ m n, pamI (Factory.driverCfg (plain c)) k = .ok m →
      cfgI (cutAndCheckCfg requiredCfg
        (Dict.update c ((Factory.driverCfg (plain c)).map (fun kv => (kv.1, CfgVal.val kv.2)))) usedCfg) k = .ok n → m = n := by
    intro k hk m n hm hn
    have hk' : k ∈ ["nystart", "nyend", "emstart", "idtm"] := by
      clear * - hk; revert k; decide
    obtain ⟨v, hv, hnum⟩ := driverCfg_num (plain c) hk'
    have e1 : Dict.get? (cutAndCheckCfg requiredCfg
        (Dict.update c ((Factory.driverCfg (plain c)).map (fun kv => (kv.1, CfgVal.val kv.2)))) usedCfg) k = some (.val v) := by
      unfold cutAndCheckCfg
      refine checkNumericCfg_keep ?_ hnum
      rw [get?_cutCfg hwf, hget, hv]
      · rfl
      · rw [has_iff, mem_keys_update]
        right
        show k ∈ ["nystart", "nyend", "emstart", "carbon_cycle_model", "thermal_model"]
        clear * - hk; revert k; decide
    unfold cfgI Dict.getE at hn
    rw [e1] at hn
    unfold pamI Dict.getE at hm
    rw [hv] at hm
    simp only [bind_ok] at hm hn
    cases ht : v.toI with
    | none => rw [ht] at hm; cases hm
    | some z =>
      rw [ht] at hm hn
      rw [Except.ok.injEq] at hm hn
      rw [← hm, ← hn]
  have y1 := yr "nystart" (by simp) _ _ h2 S.years1
  have y2 := yr "nyend" (by simp) _ _ h3 S.years2
  subst h6
  refine ⟨⟨_, ih, h1, hwf, ?_, y1, y2, ?_, ?_, ?_, ⟨rs, ?_, f3⟩, ⟨rl, ?_, f4⟩, h4⟩⟩
  · intro k hk
    rw [hget, (get?_eq_none_iff _ _).2 (fun hh => hk (keys_driverCfg _ hh))]
    rfl
  · unfold initialiseOutputArrays at h5
    split at h5
    · cases h5
    · simp only; omega
  · rw [g1, asRows_ok a1]
  · rw [g2, asRows_ok a2]
  · rw [g3, asRows_ok a3]
  · rw [g4, asRows_ok a4]

end
end Verif.Model.InputHandler
