import Verif.Props.C74

/-!
# C85: natural emission files; C74: the kind of run
-/

namespace Verif.Props
open Verif.Py Verif.Py.Dict Verif.Model Verif.Model.Handler Verif.Model.Driver Verif.Model.InputHandler Verif.Spec.Inputs
  Verif.Spec.Uses

section
variable {F κ τ : Type} [Add F] [Sub F] [Mul F] [Div F] [Neg F] [OfScientific F] [LT F] [DecidableLT F] [MathFn F]

/-- What a run with gases was made from. -/
theorem gas_run_inputs {cops : CarbonOps F κ} {tops : ThermalOps F τ} {fs : Files F} {c : Dict (CfgVal F)} {d : Driver F κ}
    (hc : WF c) (h : build cops tops fs c = .ok d) {g : Handler.Handler F κ} (hg : d.source = .handler g) :
    ∃ (B : Built cops fs c d) (inp : Inputs F), getInputs fs B.ih = .ok inp ∧ ∃ p, construct cops inp (some p) none = .ok g := by
  obtain ⟨B⟩ := built hc h
  have hs := B.source
  rw [hg] at hs
  unfold buildSource at hs
  by_cases ho : optionalPam B.ih "forc" = true
  · rw [if_pos ho] at hs
    simp only [bind_eq_ok] at hs
    obtain ⟨x, -, f, -, hf⟩ := hs
    rw [pure_ok, Except.ok.injEq] at hf
    cases hf
  rw [if_neg ho] at hs
  simp only [bind_eq_ok] at hs
  obtain ⟨p, -, inp, hi, h1, hk, he⟩ := hs
  rw [pure_ok, Except.ok.injEq, Source.handler.injEq] at he
  subst he
  exact ⟨B, inp, hi, _, hk⟩

omit [Add F] [Sub F] [Mul F] [Div F] [Neg F] [LT F] [DecidableLT F] [MathFn F] in
theorem readNatural_ok {gas : String} {xs : List F} {t : Frame F} (h : readNatural gas xs = .ok t) :
    xs.length = 751 ∧ NumberPerYear xs gas t := by
  unfold readNatural at h
  split at h
  · rename_i hl
    rw [Except.ok.injEq] at h
    rw [pyRange_length] at hl
    refine ⟨hl, fun n x hx => ?_⟩
    have hn : n < xs.length := by
      by_contra hh
      rw [List.getElem?_eq_none (by omega)] at hx
      cases hx
    subst h
    unfold Frame.at'
    rw [if_pos ⟨by simp, by rw [mem_pyRange]; norm_num at hl; omega⟩]
    have e : ((1750 : Int) + n - 1750).toNat = n := by omega
    simp only [e, hx, Option.getD_some]
  · cases h

/-- The reading method of natural emissions. -/
theorem readFile_natural (fs : Files F) (ih : InputHandler.Handler F) {what gas p : String}
    (hg : (what, gas) ∈ [("nat_ch4", "CH4"), ("nat_n2o", "N2O")]) {xs : List F} (hx : fs.column p = .ok xs) :
    readFile fs ih what p = (readNatural gas xs).map .table := by
  have hn : what = "nat_ch4" ∧ gas = "CH4" ∨ what = "nat_n2o" ∧ gas = "N2O" := by simpa using hg
  unfold readFile
  rcases hn with ⟨rfl, rfl⟩ | ⟨rfl, rfl⟩
  · rw [if_neg (by decide), if_neg (by decide), if_pos rfl, hx, bind_ok]
    cases readNatural "CH4" xs <;> rfl
  · rw [if_neg (by decide), if_neg (by decide), if_neg (by decide), if_pos rfl, hx, bind_ok]
    cases readNatural "N2O" xs <;> rfl

/-- What a run with gases has, if its natural emissions are read from a file. -/
theorem natural_read {fs : Files F} {ih : InputHandler.Handler F} {inp : Inputs F} (hi : getInputs fs ih = .ok inp)
    {what gas p : String} (hg : (what, gas) ∈ [("nat_ch4", "CH4"), ("nat_n2o", "N2O")])
    (hr : getData fs ih what = readFile fs ih what p) {xs : List F} (hx : fs.column p = .ok xs) :
    xs.length = 751 ∧ NumberPerYear xs gas (natural inp gas) := by
  have hn : what = "nat_ch4" ∧ gas = "CH4" ∨ what = "nat_n2o" ∧ gas = "N2O" := by simpa using hg
  have hw : what ∈ ["gaspam", "nat_ch4", "nat_n2o", "concentrations", "emissions"] ∧ what ∈ gasInputs := by
    rcases hn with ⟨rfl, -⟩ | ⟨rfl, -⟩ <;> decide
  obtain ⟨y, hy⟩ := getInputs_ok hi what hw.1
  have hu := (inputs_used hi).1 what hw.2 y hy
  have hy' := hy
  rw [hr, readFile_natural fs ih hg hx] at hy'
  cases ht : readNatural gas xs with
  | error e => rw [ht] at hy'; cases hy'
  | ok t =>
    rw [ht] at hy'
    simp only [Except.map, Except.ok.injEq] at hy'
    subst hy'
    have : t = natural inp gas := by
      rcases hn with ⟨rfl, rfl⟩ | ⟨rfl, rfl⟩
      · have := hu.natural_methane rfl
        simpa [natural] using this
      · have := hu.natural_nitrous_oxide rfl
        simpa [natural] using this
    rw [← this]
    exact readNatural_ok ht

/-- **C85** Natural emissions configured as a file: the file has 751 numbers and the run emits, of that gas, the first in 1750,
the next in 1751 and so on, whatever years the run has and whatever is configured as data beside it. A configured file that does
not exist is not an error: then the file of the standard name below the current directory is used. -/
theorem C85_file {cops : CarbonOps F κ} {tops : ThermalOps F τ} {fs : Files F} {c : Dict (CfgVal F)} {d : Driver F κ}
    (hc : WF c) (h : build cops tops fs c = .ok d) {g : Handler.Handler F κ} (hg : d.source = .handler g) :
    ∃ inp : Inputs F, (∃ p, construct cops inp (some p) none = .ok g) ∧
      ∀ what gas, (what, gas) ∈ [("nat_ch4", "CH4"), ("nat_n2o", "N2O")] → ∀ p, FileIs c what p → ∀ xs : List F,
        fs.column (if fs.present p = true then p else naturalElsewhere fs gas) = .ok xs →
        xs.length = 751 ∧ NumberPerYear xs gas (natural inp gas) := by
  obtain ⟨B, inp, hi, hk⟩ := gas_run_inputs hc h hg
  refine ⟨inp, hk, fun what gas hg p hf xs hx => ?_⟩
  have hn : what = "nat_ch4" ∧ gas = "CH4" ∨ what = "nat_n2o" ∧ gas = "N2O" := by simpa using hg
  have hw : what ∈ inputs ∧ what ++ "_file" ∉ driverKeys ∧ what ∈ readMethods ∧
      naturalPath fs (what ++ "_file") = naturalElsewhere fs gas ∧ what ++ "_file" ∈ ["nat_ch4_file", "nat_n2o_file"] := by
    rcases hn with ⟨rfl, rfl⟩ | ⟨rfl, rfl⟩
    · exact ⟨by decide, by decide, by decide, rfl, by decide⟩
    · exact ⟨by decide, by decide, by decide, rfl, by decide⟩
  by_cases hp : fs.present p = true
  · rw [if_pos hp] at hx
    exact natural_read hi hg (C47_file_wins B.wf B.create hw.1 ((B.same _ hw.2.1).trans hf) hp) hx
  rw [if_neg hp] at hx
  obtain ⟨S⟩ := create_stages B.create
  have e := defaults_file B.wf S.defaults hw.2.2.1 ((B.same _ hw.2.1).trans hf)
  obtain ⟨v', h1, h2⟩ := (stored S (file_not_natural hw.2.2.1)).2 _ e
  have hv : v' = .val (.str (naturalElsewhere fs gas)) := by
    unfold checkFile at h1
    rw [if_pos (input_suffix hw.2.2.1).1] at h1
    simp only [CfgVal.path, bind_eq_ok, Except.ok.injEq] at h1
    obtain ⟨q, rfl, h1⟩ := h1
    rw [if_neg hp, if_neg (not_not.2 hw.2.2.2.2), pure_ok, Except.ok.injEq, Prod.mk.injEq] at h1
    rw [← h1.2, hw.2.2.2.1]
  rw [hv] at h2
  exact natural_read hi hg (getData_file hw.2.2.1 h2) hx

/-- **C85** A natural emission file with another number of rows cannot be used: no model is made. -/
theorem C85_other_length {cops : CarbonOps F κ} {tops : ThermalOps F τ} {fs : Files F} {c : Dict (CfgVal F)}
    (hc : WF c) (hf : NoFile c "forc") (hd : NoData c "forc") {what gas p : String}
    (hg : (what, gas) ∈ [("nat_ch4", "CH4"), ("nat_n2o", "N2O")]) (hn : FileIs c what p) (hp : fs.present p = true)
    {xs : List F} (hx : fs.column p = .ok xs) (hl : xs.length ≠ 751) (d : Driver F κ) : build cops tops fs c ≠ .ok d := by
  intro h
  obtain ⟨g, hs⟩ := C74_no_forcing hc h hf hd
  obtain ⟨inp, -, hh⟩ := C85_file hc h hs
  exact hl (hh what gas hg p hn xs (by rw [if_pos hp]; exact hx)).1

/-- The input handler keeps `conc_run` as it is given. -/
theorem conc_run_stored {cops : CarbonOps F κ} {fs : Files F} {c : Dict (CfgVal F)} {d : Driver F κ} (B : Built cops fs c d) :
    Dict.get? B.ih.cfg "conc_run" = Dict.get? c "conc_run" := by
  obtain ⟨S⟩ := create_stages B.create
  have e1 : Dict.keys (usedCfg (F := F)) = ["sunvolc", "conc_run", "idtm"] ++
      readMethods.flatMap (fun k => [k ++ "_file", k ++ "_data"]) := by
    rfl
  have e2 : Dict.keys (requiredCfg (F := F)) = ["nystart", "nyend", "emstart", "carbon_cycle_model", "thermal_model"] := rfl
  have e3 := setDefaults_other (k := "conc_run") (cut_volc B.cfg).1 (cut_volc B.cfg).2 S.defaults (by decide) (by decide)
  rw [get?_cutAndCheckCfg B.wf (by rw [e2]; decide) (by rw [e1]; decide +kernel), B.same _ (by decide)] at e3
  rw [← e3]
  cases hv : Dict.get? S.cfg2 "conc_run" with
  | none => exact (stored S (by decide)).1 hv
  | some v =>
    obtain ⟨v', h1, h2⟩ := (stored S (by decide)).2 v hv
    rw [h2, checkFile_other (by decide +kernel) h1]

/-- **C74** The kind of a run with gases: driven by emissions unless the configuration says `conc_run`. -/
theorem C74_kind {cops : CarbonOps F κ} {tops : ThermalOps F τ} {fs : Files F} {c : Dict (CfgVal F)} {d : Driver F κ}
    (hc : WF c) (h : build cops tops fs c = .ok d) {g : Handler.Handler F κ} (hg : d.source = .handler g) :
    ∃ inp : Inputs F, (∃ p, construct cops inp (some p) none = .ok g) ∧
      (Dict.get? c "conc_run" = none → inp.concRun = false) ∧
      (∀ b, Dict.get? c "conc_run" = some (.val (.bool b)) → inp.concRun = b) := by
  obtain ⟨B, inp, hi, hk⟩ := gas_run_inputs hc h hg
  refine ⟨inp, hk, fun e => ?_, fun b e => ?_⟩
  · rw [(inputs_used hi).2.2.2, concRun, conc_run_stored B, e]
  · rw [(inputs_used hi).2.2.2, concRun, conc_run_stored B, e]
    rfl

end

/-! ## The cases occur -/
open Verif.Exec Verif.Model.ThermalInst

/-- Files in which the numbers of natural emissions differ from year to year. -/
def numberedFiles : Files ℚ := { toyFiles with column := fun p => .ok (if p = "short.txt" then [1, 2] else
  (List.range 751).map (fun n => (n : ℚ))) }

/-- Natural methane from a file, nitrous oxide from a file that does not exist. -/
def numberedCfg : Dict (CfgVal ℚ) := toyCfg [("nat_ch4_file", str "nat.txt"), ("nat_n2o_file", str "gone.txt"), ("conc_run", .val (.bool true))]

example : WF numberedCfg ∧ (∃ d g, build toyCarbon twoLayerOps numberedFiles numberedCfg = .ok d ∧ d.source = .handler g) ∧
    FileIs numberedCfg "nat_ch4" "nat.txt" ∧ numberedFiles.present "nat.txt" = true ∧ FileIs numberedCfg "nat_n2o" "gone.txt" ∧
    numberedFiles.present "gone.txt" = false ∧ NoFile numberedCfg "forc" ∧ NoData numberedCfg "forc" ∧
    Dict.get? numberedCfg "conc_run" = some (.val (.bool true)) := by
  have hw : WF numberedCfg := by unfold WF; decide +kernel
  have hb : ∃ d, build toyCarbon twoLayerOps numberedFiles numberedCfg = .ok d := by rw [← okB_iff]; decide +kernel
  obtain ⟨d, hd⟩ := hb
  obtain ⟨g, hg⟩ := C74_no_forcing hw hd rfl rfl
  exact ⟨hw, ⟨d, g, hd, hg⟩, rfl, by decide +kernel, rfl, by decide +kernel, rfl, rfl, rfl⟩

/-- Natural emissions of 2003 are the number 253 of the file (counted from 0). -/
example : ∃ inp : Inputs ℚ, (natural inp "CH4").at' "CH4" 2003 = .ok 253 ∧ (natural inp "N2O").at' "N2O" 2003 = .ok 253 := by
  have hw : WF numberedCfg := by unfold WF; decide +kernel
  have hb : ∃ d, build toyCarbon twoLayerOps numberedFiles numberedCfg = .ok d := by rw [← okB_iff]; decide +kernel
  obtain ⟨d, hd⟩ := hb
  obtain ⟨g, hg⟩ := C74_no_forcing hw hd rfl rfl
  obtain ⟨inp, -, h1⟩ := C85_file hw hd hg
  refine ⟨inp, ?_, ?_⟩
  · exact (h1 "nat_ch4" "CH4" (by simp) "nat.txt" rfl _ rfl).2 253 253 (by decide +kernel)
  · exact (h1 "nat_n2o" "N2O" (by simp) "gone.txt" rfl _ rfl).2 253 253 (by decide +kernel)

/-- A file with two rows. -/
example (d : Driver ℚ ℚ) : build toyCarbon twoLayerOps numberedFiles (toyCfg [("nat_ch4_file", str "short.txt")]) ≠ .ok d :=
  C85_other_length (c := toyCfg [("nat_ch4_file", str "short.txt")]) (what := "nat_ch4") (gas := "CH4") (p := "short.txt")
    (by unfold WF; decide +kernel) rfl rfl (by simp) rfl (by decide +kernel) rfl (by decide) d

end Verif.Props
