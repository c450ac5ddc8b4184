import Verif.Lemmas.InputCreate
import Verif.Spec.Inputs
import Verif.Exec.InputRun

/-!
# C47: which source an input is taken from
-/

namespace Verif.Props
open Verif.Py Verif.Py.Dict Verif.Model Verif.Model.Handler Verif.Model.InputHandler Verif.Spec.Inputs

section
variable {F : Type} [Add F] [Sub F] [Mul F] [Div F] [Neg F] [OfScientific F] [LT F] [DecidableLT F] [MathFn F]

theorem sunvolcOn_iff (c : Dict (CfgVal F)) : sunvolcOn c = true ↔ SunVolc c := by
  unfold sunvolcOn SunVolc
  constructor
  · intro h
    split at h
    · rename_i v hv; exact ⟨v, hv, h⟩
    · cases h
  · rintro ⟨v, hv, h⟩
    rw [hv]
    exact h

/-- **C47** A configured file is what the input is read from, whatever data are configured beside it. -/
theorem C47_file_wins {fs : Files F} {c : Dict (CfgVal F)} {ih : InputHandler.Handler F} (hc : WF c) (h : create fs c = .ok ih)
    {what p : String} (hw : what ∈ inputs) (hf : FileIs c what p) (hp : fs.present p = true) :
    getData fs ih what = readFile fs ih what p := by
  obtain ⟨S⟩ := create_stages h
  have e := defaults_file hc S.defaults hw hf
  obtain ⟨v', h1, h2⟩ := (stored S (file_not_natural hw)).2 _ e
  rw [checkFile_present hp h1] at h2
  exact getData_file hw h2

/-- **C47** A configured file that does not exist makes the construction fail (natural emissions excepted). -/
theorem C47_missing_file {fs : Files F} {c : Dict (CfgVal F)} (hc : WF c) {what p : String} (hw : what ∈ inputs)
    (hn : what ∉ ["nat_ch4", "nat_n2o"]) (hf : FileIs c what p) (hp : fs.present p = false) (ih : InputHandler.Handler F) :
    create fs c ≠ .ok ih := by
  intro h
  obtain ⟨S⟩ := create_stages h
  have e := defaults_file hc S.defaults hw hf
  obtain ⟨v', h1, -⟩ := (stored S (file_not_natural hw)).2 _ e
  unfold checkFile at h1
  have hn' : what ++ "_file" ∉ ["nat_ch4_file", "nat_n2o_file"] := by
    clear * - hw hn
    revert what
    decide +kernel
  rw [if_pos (input_suffix hw).1] at h1
  simp only [CfgVal.path, bind_eq_ok, Except.ok.injEq] at h1
  obtain ⟨q, rfl, h1⟩ := h1
  rw [if_neg (by rw [hp]; decide), if_pos hn'] at h1
  cases h1

/-- **C47** Without a file, configured data are what the input is (for solar and volcanic inputs with `sunvolc`
equal to 1; see C48 for the other case). -/
theorem C47_data_used {fs : Files F} {c : Dict (CfgVal F)} {ih : InputHandler.Handler F} (hc : WF c) (h : create fs c = .ok ih)
    {what : String} {d : Data F} (hw : what ∈ inputs) (hf : NoFile c what) (hd : DataIs c what d)
    (hs : SunVolc c ∨ what ∉ solarVolcanic) : getData fs ih what = .ok d := by
  obtain ⟨S⟩ := create_stages h
  have e1 := defaults_nofile hc S.defaults hw hf hd
  have e2 := defaults_data hc S.defaults hw (hs.imp_left (sunvolcOn_iff c).2)
  have e3 := (stored S (file_not_natural hw)).1 e1
  refine getData_data e3 ?_
  have e4 : Dict.get? S.ih1.cfg (what ++ "_data") = some (.data d) := by
    by_cases hn : what = "nat_ch4" ∨ what = "nat_n2o"
    · rw [natural_kept S.natural hn ?_]
      · exact e2.trans hd
      · unfold optionalPam
        rw [Bool.or_eq_true]
        refine Or.inr ?_
        unfold Dict.has
        rw [e2.trans hd]
        rfl
    · rw [not_or] at hn
      have := data_not_natural hw hn.1 hn.2
      unfold naturalData at this
      simp only [List.mem_cons, List.not_mem_nil, or_false, not_or] at this
      rw [natural_get S.natural this.1 this.2]
      exact e2.trans hd
  obtain ⟨v', h1, h2⟩ := (files_get S.files _).2 _ e4
  rw [checkFile_other (input_suffix hw).2 h1] at h2
  exact h2

/-- **C47** An input without default that is not configured raises `KeyError` when it is asked for. -/
theorem C47_mandatory {fs : Files F} {c : Dict (CfgVal F)} {ih : InputHandler.Handler F} (hc : WF c) (h : create fs c = .ok ih)
    {what : String} (hw : what ∈ noDefault) (hf : NoFile c what) (hd : NoData c what) :
    getData fs ih what = .error .keyError := by
  obtain ⟨S⟩ := create_stages h
  have hi : what ∈ inputs ∧ what ++ "_file" ∉ defaultFiles ∧ what ≠ "nat_ch4" ∧ what ≠ "nat_n2o" ∧
      what ∉ ["rf_sun", "rf_volc_n", "rf_volc_s"] := by
    clear * - hw
    revert what
    decide +kernel
  have e1 := defaults_none hc S.defaults hi.1 hi.2.1 hf
  have e2 := defaults_data hc S.defaults hi.1 (Or.inr hi.2.2.2.2)
  exact getData_none ((stored S (file_not_natural hi.1)).1 e1)
    ((stored S (data_not_natural hi.1 hi.2.2.1 hi.2.2.2.1)).1 (e2.trans hd))

/-- A default file is what the input is read from. -/
theorem default_file {fs : Files F} {c : Dict (CfgVal F)} {ih : InputHandler.Handler F} (S : Stages fs c ih) {what p : String}
    (hw : what ∈ readMethods) (hn : what ++ "_file" ∉ ["nat_ch4_file", "nat_n2o_file"])
    (h : Dict.get? S.cfg2 (what ++ "_file") = some (.val (.str p))) : getData fs ih what = readFile fs ih what p := by
  obtain ⟨v', h1, h2⟩ := (stored S (file_not_natural hw)).2 _ h
  have hp : fs.present p = true := by
    by_contra hp
    have hs := (input_suffix hw).1
    unfold checkFile at h1
    rw [if_pos hs] at h1
    simp only [CfgVal.path, bind_eq_ok, Except.ok.injEq] at h1
    obtain ⟨q, rfl, h1⟩ := h1
    rw [if_neg hp, if_pos hn] at h1
    cases h1
  rw [checkFile_present hp h1] at h2
  exact getData_file hw h2

/-- **C47** Land use albedo that is not configured is read from the file that comes with the package. -/
theorem C47_luc_default {fs : Files F} {c : Dict (CfgVal F)} {ih : InputHandler.Handler F} (hc : WF c) (h : create fs c = .ok ih)
    (hf : NoFile c "rf_luc") (hd : NoData c "rf_luc") :
    getData fs ih "rf_luc" = readFile fs ih "rf_luc" (fs.defaultDir ++ "/IPCC_LUCalbedo.txt") := by
  obtain ⟨S⟩ := create_stages h
  have hw : "rf_luc" ∈ readMethods := by decide
  obtain ⟨⟨k1, k2⟩, k3, k4⟩ := input_keys (F := F) hw
  have e1 : Dict.get? (cutAndCheckCfg requiredCfg c usedCfg) "rf_luc_file" = none := (get?_cutAndCheckCfg hc k2 k1).trans hf
  have e2 : Dict.get? (cutAndCheckCfg requiredCfg c usedCfg) "rf_luc_data" = none := (get?_cutAndCheckCfg hc k4 k3).trans hd
  have e3 : Dict.get? S.cfg2 "rf_luc_file" = some (.val (.str (fs.defaultDir ++ "/IPCC_LUCalbedo.txt"))) := by
    have hs := S.defaults
    have V := cut_volc c
    generalize cutAndCheckCfg requiredCfg c usedCfg = cfg at *
    have g : Dict.get? (lucDefault fs cfg) "rf_luc_file" = some (.val (.str (fs.defaultDir ++ "/IPCC_LUCalbedo.txt"))) := by
      rw [lucDefault_get, if_pos ⟨rfl, e1, e2⟩]
    unfold setDefaults at hs
    simp only at hs
    split at hs
    · rw [Except.ok.injEq] at hs
      rw [← hs, (volcDefault_get fs _ _ _).2 (by rintro ⟨-, e | e⟩ <;> revert e <;> decide), sunDefault_get,
        if_neg (fun e => absurd e.1 (by decide)), g]
      · rw [sunDefault_get, if_neg (fun e => absurd e.1 (by decide)), lucDefault_get, if_neg (fun e => absurd e.1 (by decide))]
        exact V.1
      · rw [sunDefault_get, if_neg (fun e => absurd e.1 (by decide)), lucDefault_get, if_neg (fun e => absurd e.1 (by decide))]
        exact V.2
    · rw [(sunVolcZero_get hs).2, if_neg (by decide), if_neg (by decide), g]
  exact default_file S hw (by decide) e3

/-- **C47** With `sunvolc` equal to 1, solar forcing that is not configured is read from the file that comes with the
package. -/
theorem C47_sun_default {fs : Files F} {c : Dict (CfgVal F)} {ih : InputHandler.Handler F} (hc : WF c) (h : create fs c = .ok ih)
    (hs : SunVolc c) (hf : NoFile c "rf_sun") (hd : NoData c "rf_sun") :
    getData fs ih "rf_sun" = readFile fs ih "rf_sun" (fs.defaultDir ++ "/solar_IPCC.txt") := by
  obtain ⟨S⟩ := create_stages h
  have hw : "rf_sun" ∈ readMethods := by decide
  obtain ⟨⟨k1, k2⟩, k3, k4⟩ := input_keys (F := F) hw
  refine default_file S hw (by decide) ?_
  have e1 : Dict.get? (cutAndCheckCfg requiredCfg c usedCfg) "rf_sun_file" = none := (get?_cutAndCheckCfg hc k2 k1).trans hf
  have e2 : Dict.get? (cutAndCheckCfg requiredCfg c usedCfg) "rf_sun_data" = none := (get?_cutAndCheckCfg hc k4 k3).trans hd
  have hon := (cut_sunvolc hc).trans ((sunvolcOn_iff c).2 hs)
  have hs := S.defaults
  have V := cut_volc c
  generalize cutAndCheckCfg requiredCfg c usedCfg = cfg at *
  unfold setDefaults at hs
  simp only at hs
  rw [sunvolc_luc, if_pos hon, Except.ok.injEq] at hs
  show Dict.get? S.cfg2 "rf_sun_file" = _
  rw [← hs, (volcDefault_get fs _ _ _).2 (by rintro ⟨-, e | e⟩ <;> revert e <;> decide), sunDefault_get, if_pos]
  · refine ⟨rfl, ?_, ?_⟩
    · rw [lucDefault_get, if_neg (fun e => absurd e.1 (by decide))]; exact e1
    · rw [lucDefault_get, if_neg (fun e => absurd e.1 (by decide))]; exact e2
  · rw [sunDefault_get, if_neg (fun e => absurd e.1 (by decide)), lucDefault_get, if_neg (fun e => absurd e.1 (by decide))]
    exact V.1
  · rw [sunDefault_get, if_neg (fun e => absurd e.1 (by decide)), lucDefault_get, if_neg (fun e => absurd e.1 (by decide))]
    exact V.2

/-- **C47** With `sunvolc` equal to 1 and no volcanic forcing configured, both hemispheres are read from the file that
comes with the package (as coded the northern one for both). -/
theorem C47_volc_default {fs : Files F} {c : Dict (CfgVal F)} {ih : InputHandler.Handler F} (hc : WF c) (h : create fs c = .ok ih)
    (hs : SunVolc c) (hv : ∀ w ∈ ["rf_volc_n", "rf_volc_s"], NoFile c w ∧ NoData c w) {what : String}
    (hw : what ∈ ["rf_volc_n", "rf_volc_s"]) :
    getData fs ih what = readFile fs ih what (fs.defaultDir ++ "/meanVOLCmnd_ipcc_NH.txt") := by
  obtain ⟨S⟩ := create_stages h
  have hw' : what ∈ readMethods ∧ what ++ "_file" ∉ ["nat_ch4_file", "nat_n2o_file"] ∧
      (what ++ "_file" = "rf_volc_n_file" ∨ what ++ "_file" = "rf_volc_s_file") := by
    clear * - hw; revert what; decide +kernel
  refine default_file S hw'.1 hw'.2.1 ?_
  have K : ∀ w ∈ ["rf_volc_n", "rf_volc_s"], Dict.get? (cutAndCheckCfg requiredCfg c usedCfg) (w ++ "_file") = none ∧
      Dict.get? (cutAndCheckCfg requiredCfg c usedCfg) (w ++ "_data") = none := by
    intro w hw
    have hw2 : w ∈ readMethods := by clear * - hw; revert w; decide
    obtain ⟨⟨k1, k2⟩, k3, k4⟩ := input_keys (F := F) hw2
    exact ⟨(get?_cutAndCheckCfg hc k2 k1).trans (hv w hw).1, (get?_cutAndCheckCfg hc k4 k3).trans (hv w hw).2⟩
  have hon := (cut_sunvolc hc).trans ((sunvolcOn_iff c).2 hs)
  have hs := S.defaults
  have V := cut_volc c
  generalize cutAndCheckCfg requiredCfg c usedCfg = cfg at *
  have g : ∀ k, k ≠ "rf_luc_file" → k ≠ "rf_sun_file" → Dict.get? (sunDefault fs (lucDefault fs cfg)) k = Dict.get? cfg k := by
    intro k e1 e2
    rw [sunDefault_get, if_neg (fun e => e2 e.1), lucDefault_get, if_neg (fun e => e1 e.1)]
  unfold setDefaults at hs
  simp only at hs
  rw [sunvolc_luc, if_pos hon, Except.ok.injEq] at hs
  rw [← hs]
  refine (volcDefault_get fs (by rw [g _ (by decide) (by decide)]; exact V.1)
    (by rw [g _ (by decide) (by decide)]; exact V.2) _).1 ⟨?_, hw'.2.2⟩
  intro k hk
  simp only [List.mem_cons, List.not_mem_nil, or_false] at hk
  rcases hk with rfl | rfl | rfl | rfl
  · rw [g _ (by decide) (by decide)]; exact (K "rf_volc_n" (by simp)).1
  · rw [g _ (by decide) (by decide)]; exact (K "rf_volc_s" (by simp)).1
  · rw [g _ (by decide) (by decide)]; exact (K "rf_volc_n" (by simp)).2
  · rw [g _ (by decide) (by decide)]; exact (K "rf_volc_s" (by simp)).2

/-- **C47** With `sunvolc` equal to 1 and volcanic forcing configured for one hemisphere only, the other hemisphere
raises `KeyError`. -/
theorem C47_volc_one_hemisphere {fs : Files F} {c : Dict (CfgVal F)} {ih : InputHandler.Handler F} (hc : WF c)
    (h : create fs c = .ok ih) (hs : SunVolc c) {what other : String}
    (hw : (what, other) ∈ [("rf_volc_n", "rf_volc_s"), ("rf_volc_s", "rf_volc_n")])
    (hv : ¬ (NoFile c what ∧ NoData c what)) (ho : NoFile c other ∧ NoData c other) :
    getData fs ih other = .error .keyError := by
  obtain ⟨S⟩ := create_stages h
  have hw' : what ∈ ["rf_volc_n", "rf_volc_s"] ∧ other ∈ readMethods ∧ what ∈ readMethods ∧ other ≠ "nat_ch4" ∧ other ≠ "nat_n2o" ∧
     other ++ "_file" ≠ "rf_luc_file" ∧ other ++ "_file" ≠ "rf_sun_file" := by
    have : (what = "rf_volc_n" ∧ other = "rf_volc_s") ∨ (what = "rf_volc_s" ∧ other = "rf_volc_n") := by simpa using hw
    rcases this with ⟨rfl, rfl⟩ | ⟨rfl, rfl⟩ <;> decide
  obtain ⟨w1, w2, w3, w4, w5, w6, w7⟩ := hw'
  have e2 := defaults_data hc S.defaults w2 (Or.inl ((sunvolcOn_iff c).2 hs))
  refine getData_none ((stored S (file_not_natural w2)).1 ?_) ((stored S (data_not_natural w2 w4 w5)).1 (e2.trans ho.2))
  obtain ⟨⟨k1, k2⟩, -⟩ := input_keys (F := F) w2
  obtain ⟨⟨k3, k4⟩, k5, k6⟩ := input_keys (F := F) w3
  have E1 : Dict.get? (cutAndCheckCfg requiredCfg c usedCfg) (other ++ "_file") = none := (get?_cutAndCheckCfg hc k2 k1).trans ho.1
  have E2 : ¬ (Dict.get? (cutAndCheckCfg requiredCfg c usedCfg) (what ++ "_file") = none ∧
      Dict.get? (cutAndCheckCfg requiredCfg c usedCfg) (what ++ "_data") = none) := by
    rw [get?_cutAndCheckCfg hc k4 k3, get?_cutAndCheckCfg hc k6 k5]
    exact hv
  have hon := (cut_sunvolc hc).trans ((sunvolcOn_iff c).2 hs)
  have hs := S.defaults
  have V := cut_volc c
  generalize cutAndCheckCfg requiredCfg c usedCfg = cfg at *
  have g : ∀ k, k ≠ "rf_luc_file" → k ≠ "rf_sun_file" → Dict.get? (sunDefault fs (lucDefault fs cfg)) k = Dict.get? cfg k := by
    intro k e1 e2
    rw [sunDefault_get, if_neg (fun e => e2 e.1), lucDefault_get, if_neg (fun e => e1 e.1)]
  unfold setDefaults at hs
  simp only at hs
  rw [sunvolc_luc, if_pos hon, Except.ok.injEq] at hs
  rw [← hs, (volcDefault_get fs (by rw [g _ (by decide) (by decide)]; exact V.1)
    (by rw [g _ (by decide) (by decide)]; exact V.2) _).2, g _ w6 w7, E1]
  rintro ⟨hn, -⟩
  apply E2
  simp only [List.mem_cons, List.not_mem_nil, or_false] at w1
  rcases w1 with rfl | rfl
  · exact ⟨by rw [← g _ (by decide) (by decide)]; exact hn "rf_volc_n_file" (by simp),
      by rw [← g _ (by decide) (by decide)]; exact hn "rf_volc_n_data" (by simp)⟩
  · exact ⟨by rw [← g _ (by decide) (by decide)]; exact hn "rf_volc_s_file" (by simp),
      by rw [← g _ (by decide) (by decide)]; exact hn "rf_volc_s_data" (by simp)⟩

/-- **C47** Natural emissions that are not configured are the value of the gas table in every run year. -/
theorem C47_natural_default {fs : Files F} {c : Dict (CfgVal F)} {ih : InputHandler.Handler F} (hc : WF c)
    (h : create fs c = .ok ih) {what gas : String} (hg : (what, gas) ∈ [("nat_ch4", "CH4"), ("nat_n2o", "N2O")])
    (hf : NoFile c what) (hd : NoData c what) {t : Dict (Gas F × String)} (ht : getData fs ih "gaspam" = .ok (.gases t)) :
    ∃ row, Dict.get? t gas = some row ∧ getData fs ih what = .ok (.table
      { cols := [gas], idx := pyRange ih.nystart (ih.nyend + 1), cell := fun _ _ => 1.0 * row.1.natEm }) := by
  obtain ⟨S⟩ := create_stages h
  have hn : what = "nat_ch4" ∧ gas = "CH4" ∨ what = "nat_n2o" ∧ gas = "N2O" := by
    simpa using hg
  have hw : what ∈ readMethods ∧ what ++ "_file" ∉ defaultFiles ∧ what ∉ ["rf_sun", "rf_volc_n", "rf_volc_s"] := by
    rcases hn with ⟨rfl, -⟩ | ⟨rfl, -⟩ <;> decide
  have e1 := defaults_none hc S.defaults hw.1 hw.2.1 hf
  have e2 := (defaults_data hc S.defaults hw.1 (Or.inr hw.2.2)).trans hd
  obtain ⟨a, ha, hb⟩ := natural_turns S.natural
  have A := naturalDefault_spec ha
  have B := naturalDefault_spec hb
  -- the gas table is the same at every stage
  have gk : ∀ k, k = "gaspam_file" ∨ k = "gaspam_data" → Dict.get? a.cfg k = Dict.get? S.cfg2 k ∧ Dict.get? ih.cfg k = Dict.get? S.cfg2 k := by
    intro k hk
    have hk' : k ∉ naturalData ∧ k ≠ "nat_ch4_data" ∧ k ≠ "nat_n2o_data" := by
      rcases hk with rfl | rfl <;> decide
    refine ⟨A.2.2.1 k hk'.2.1, ?_⟩
    cases hv : Dict.get? S.cfg2 k with
    | none => exact (stored S hk'.1).1 hv
    | some v =>
      obtain ⟨v', h1, h2⟩ := (stored S hk'.1).2 v hv
      have : v' = v := by
        rcases hk with rfl | rfl
        · unfold checkFile at h1
          rw [if_pos (show "file".toList.isSuffixOf "gaspam_file".toList = true by decide +kernel)] at h1
          simp only [bind_eq_ok] at h1
          obtain ⟨q, -, h1⟩ := h1
          split at h1
          · rw [pure_ok, Except.ok.injEq, Prod.mk.injEq] at h1; exact h1.2.symm
          · rw [if_pos (by decide)] at h1; cases h1
        · exact checkFile_other (by decide +kernel) h1
      rw [h2, this]
  have data_eq : ∀ i : InputHandler.Handler F, (∀ k, k = "gaspam_file" ∨ k = "gaspam_data" → Dict.get? i.cfg k = Dict.get? S.cfg2 k) →
      getData fs i "gaspam" = .ok (.gases t) ∧ optionalPam i "gaspam" = true := by
    intro i hi
    have e3 : getData fs i "gaspam" = getData fs ih "gaspam" := by
      unfold getData
      rw [show ("gaspam" ++ "_file") = "gaspam_file" from rfl, show ("gaspam" ++ "_data") = "gaspam_data" from rfl,
        hi _ (Or.inl rfl), hi _ (Or.inr rfl), (gk _ (Or.inl rfl)).2, (gk _ (Or.inr rfl)).2]
      rfl
    refine ⟨e3.trans ht, ?_⟩
    rw [e3.symm] at ht
    unfold getData at ht
    unfold optionalPam Dict.has
    cases h1 : Dict.get? i.cfg ("gaspam" ++ "_file") with
    | some v => simp
    | none =>
      rw [h1] at ht
      cases h2 : Dict.get? i.cfg ("gaspam" ++ "_data") with
      | some v => simp
      | none => rw [h2] at ht; cases ht
  -- the flat emissions
  have flat : ∀ (i : InputHandler.Handler F), i.nystart = ih.nystart → i.nyend = ih.nyend →
      (∀ k, k = "gaspam_file" ∨ k = "gaspam_data" → Dict.get? i.cfg k = Dict.get? S.cfg2 k) → ∀ d,
      flatNatural fs i gas = .ok d → ∃ row, Dict.get? t gas = some row ∧ d = .table
        { cols := [gas], idx := pyRange ih.nystart (ih.nyend + 1), cell := fun _ _ => 1.0 * row.1.natEm } := by
    intro i y1 y2 hi d hd
    unfold flatNatural at hd
    rw [(data_eq i hi).1] at hd
    simp only [bind_ok, bind_eq_ok] at hd
    obtain ⟨row, hrow, hd⟩ := hd
    rw [pure_ok, Except.ok.injEq] at hd
    unfold Dict.getE at hrow
    split at hrow
    · rename_i v hv
      rw [Except.ok.injEq] at hrow
      subst hrow
      exact ⟨v, hv, by rw [← hd, y1, y2]⟩
    · cases hrow
  have absent : ∀ i : InputHandler.Handler F, Dict.get? i.cfg (what ++ "_file") = none → Dict.get? i.cfg (what ++ "_data") = none →
      optionalPam i what = false := by
    intro i h1 h2
    unfold optionalPam Dict.has
    rw [h1, h2]; rfl
  have fin : ∃ row, Dict.get? t gas = some row ∧ Dict.get? S.ih1.cfg (what ++ "_data") = some (.data (.table
      { cols := [gas], idx := pyRange ih.nystart (ih.nyend + 1), cell := fun _ _ => 1.0 * row.1.natEm })) := by
    rcases hn with ⟨rfl, rfl⟩ | ⟨rfl, rfl⟩
    · obtain ⟨d, hd1, hd2⟩ := A.2.2.2.2 (absent _ e1 e2) (data_eq _ (fun _ _ => rfl)).2
      obtain ⟨row, hr, rfl⟩ := flat ⟨S.cfg2, ih.nystart, ih.nyend⟩ rfl rfl (fun _ _ => rfl) d hd1
      exact ⟨row, hr, by rw [B.2.2.1 _ (by decide)]; exact hd2⟩
    · have f1 : Dict.get? a.cfg ("nat_n2o" ++ "_file") = none := (A.2.2.1 _ (by decide)).trans e1
      have f2 : Dict.get? a.cfg ("nat_n2o" ++ "_data") = none := (A.2.2.1 _ (by decide)).trans e2
      obtain ⟨d, hd1, hd2⟩ := B.2.2.2.2 (absent _ f1 f2) (data_eq a (fun k hk => (gk k hk).1)).2
      obtain ⟨row, hr, rfl⟩ := flat a A.1 A.2.1 (fun k hk => (gk k hk).1) d hd1
      exact ⟨row, hr, hd2⟩
  obtain ⟨row, hr, h1⟩ := fin
  refine ⟨row, hr, ?_⟩
  obtain ⟨v', h2, h3⟩ := (files_get S.files _).2 _ h1
  rw [checkFile_other (input_suffix hw.1).2 h2] at h3
  exact getData_data ((stored S (file_not_natural hw.1)).1 e1) h3

end

/-! ## The cases occur -/

open Verif.Exec

/-- Mandatory files, data beside a file, data alone, defaults: all in one configuration. -/
def sourceCfg : Dict (CfgVal ℚ) :=
  toyCfg [("sunvolc", .val (.int 1)), ("rf_luc_data", .data (.rows [[7], [7], [7], [7], [7]])),
    ("emissions_data", .data (.rows []))]

example : WF sourceCfg ∧ (∃ ih, create toyFiles sourceCfg = .ok ih) ∧ SunVolc sourceCfg ∧
    FileIs sourceCfg "emissions" "em.txt" ∧ toyFiles.present "em.txt" = true ∧ DataIs sourceCfg "emissions" (.rows []) ∧
    NoFile sourceCfg "rf_luc" ∧ DataIs sourceCfg "rf_luc" (.rows [[7], [7], [7], [7], [7]]) ∧
    NoFile sourceCfg "forc" ∧ NoData sourceCfg "forc" ∧ NoFile sourceCfg "rf_sun" ∧ NoData sourceCfg "rf_sun" ∧
    NoFile sourceCfg "nat_ch4" ∧ NoData sourceCfg "nat_ch4" := by
  refine ⟨?_, ?_, ⟨.int 1, rfl, ?_⟩, rfl, ?_, rfl, rfl, rfl, rfl, rfl, rfl, rfl, rfl, rfl⟩
  · unfold WF; decide +kernel
  · rw [← okB_iff]; decide +kernel
  · decide +kernel
  · decide +kernel

/-- The default file for land use. -/
example : WF (toyCfg []) ∧ (∃ ih, create toyFiles (toyCfg []) = .ok ih) ∧ NoFile (toyCfg []) "rf_luc" ∧ NoData (toyCfg []) "rf_luc" := by
  refine ⟨?_, ?_, rfl, rfl⟩
  · unfold WF; decide +kernel
  · rw [← okB_iff]; decide +kernel

/-- One hemisphere only. -/
example : ∃ c : Dict (CfgVal ℚ), WF c ∧ (∃ ih, create toyFiles c = .ok ih) ∧ SunVolc c ∧
    ¬ (NoFile c "rf_volc_n" ∧ NoData c "rf_volc_n") ∧ NoFile c "rf_volc_s" ∧ NoData c "rf_volc_s" := by
  refine ⟨toyCfg [("sunvolc", .val (.int 1)), ("rf_volc_n_file", str "sun.txt")], ?_, ?_, ⟨.int 1, rfl, ?_⟩, ?_, rfl, rfl⟩
  · unfold WF; decide +kernel
  · rw [← okB_iff]; decide +kernel
  · decide +kernel
  · rintro ⟨h, -⟩; cases h

/-- A missing file. -/
example : WF (toyCfg [("rf_luc_file", str "nowhere.txt")]) ∧ FileIs (toyCfg [("rf_luc_file", str "nowhere.txt")]) "rf_luc" "nowhere.txt" ∧
    toyFiles.present "nowhere.txt" = false := by
  refine ⟨?_, rfl, ?_⟩
  · unfold WF; decide +kernel
  · decide +kernel

end Verif.Props
