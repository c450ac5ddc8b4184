import Verif.Props.C47
import Verif.Spec.Uses

/-!
# C74: every input is used for what it is named after
-/

namespace Verif.Props
open Verif.Py Verif.Py.Dict Verif.Model Verif.Model.Handler Verif.Model.Driver Verif.Model.InputHandler Verif.Spec.Inputs
  Verif.Spec.Uses

section
variable {F κ τ : Type} [Add F] [Sub F] [Mul F] [Div F] [Neg F] [OfScientific F] [LT F] [DecidableLT F] [MathFn F]

omit [Add F] [Sub F] [Mul F] [Div F] [Neg F] [OfScientific F] [LT F] [DecidableLT F] [MathFn F] in
theorem asFrame_ok {x : Data F} {t : Frame F} (h : asFrame x = .ok t) : x = .table t := by
  unfold asFrame at h
  split at h
  · rw [Except.ok.injEq] at h; rw [h]
  · cases h

omit [Add F] [Sub F] [Mul F] [Div F] [Neg F] [OfScientific F] [LT F] [DecidableLT F] [MathFn F] in
theorem asGases_ok {x : Data F} {g : Dict (Gas F)} (h : asGases x = .ok g) :
    ∃ t, x = .gases t ∧ g = t.map (fun kv => (kv.1, kv.2.1)) := by
  unfold asGases at h
  split at h
  · rename_i t; rw [Except.ok.injEq] at h; exact ⟨t, rfl, h.symm⟩
  · cases h

theorem optional_of_ok {fs : Files F} {ih : InputHandler.Handler F} {what : String} {x : Data F}
    (hy : getData fs ih what = .ok x) : optionalPam ih what = true := by
  unfold optionalPam
  unfold getData at hy
  cases h1 : Dict.get? ih.cfg (what ++ "_file") with
  | some v => simp [Dict.has, h1]
  | none =>
    cases h2 : Dict.get? ih.cfg (what ++ "_data") with
    | some v => simp [Dict.has, h2]
    | none => rw [h1, h2] at hy; cases hy

theorem getPert_ok {fs : Files F} {ih : InputHandler.Handler F} {what : String} {o : Option (List (PertRow F))}
    (h : getPert fs ih what = .ok o) :
    (∀ x, getData fs ih what = .ok x → ∃ rs, x = .pert rs ∧ o = some rs) ∧ (getData fs ih what = .error .keyError → o = none) := by
  unfold getPert at h
  by_cases ho : optionalPam ih what = true
  · rw [if_pos ho] at h
    simp only [bind_eq_ok] at h
    obtain ⟨x, h1, rs, h2, h3⟩ := h
    rw [pure_ok, Except.ok.injEq] at h3
    refine ⟨fun y hy => ?_, fun he => ?_⟩
    · rw [h1, Except.ok.injEq] at hy
      subst hy
      unfold asPert at h2
      split at h2
      · rename_i rs'
        rw [Except.ok.injEq] at h2
        exact ⟨rs', rfl, by rw [← h3, h2]⟩
      · cases h2
    · rw [h1] at he; cases he
  · rw [if_neg ho, Except.ok.injEq] at h
    refine ⟨fun y hy => ?_, fun _ => h.symm⟩
    exact absurd (optional_of_ok hy) ho

omit [Add F] [Sub F] [Mul F] [Div F] [Neg F] [OfScientific F] [LT F] [DecidableLT F] [MathFn F] in
theorem firstColumn_ok {rs : List (List F)} {xs : List F} (h : firstColumn rs = .ok xs) : FirstEntries rs xs := by
  unfold firstColumn at h
  unfold FirstEntries
  induction rs generalizing xs with
  | nil => rw [List.mapM_nil, pure_ok, Except.ok.injEq] at h; rw [← h]; rfl
  | cons r rs ih =>
    rw [List.mapM_cons] at h
    simp only [bind_eq_ok] at h
    obtain ⟨x, h1, ys, h2, h3⟩ := h
    rw [pure_ok, Except.ok.injEq] at h3
    rw [← h3, List.map_cons, List.map_cons, ih h2]
    cases r with
    | nil => cases h1
    | cons a r => rw [Except.ok.injEq] at h1; rw [← h1]; rfl

/-- What the constructor of the gas part was given. -/
theorem inputs_used {fs : Files F} {ih : InputHandler.Handler F} {inp : Inputs F} (h : getInputs fs ih = .ok inp) :
    (∀ what ∈ gasInputs, ∀ x, getData fs ih what = .ok x → UsedFor inp what x) ∧
    (getData fs ih "perturb_em" = .error .keyError → inp.pertEm = none) ∧
    (getData fs ih "perturb_forc" = .error .keyError → inp.pertForc = none) ∧ inp.concRun = concRun ih := by
  unfold getInputs at h
  simp only [bind_eq_ok] at h
  obtain ⟨x1, g1, gas, a1, x2, g2, ch4, a2, x3, g3, n2o, a3, x4, g4, conc, a4, x5, g5, emis, a5, pe, p1, pf, p2, h⟩ := h
  rw [pure_ok, Except.ok.injEq] at h
  subst h
  refine ⟨fun what _ x hx => ⟨?_, ?_, ?_, ?_, ?_, ?_, ?_⟩, (getPert_ok p1).2, (getPert_ok p2).2, rfl⟩
  all_goals
    intro hw
    subst hw
  · rw [g1, Except.ok.injEq] at hx; subst hx; exact asGases_ok a1
  · rw [g2, Except.ok.injEq] at hx; subst hx; exact asFrame_ok a2
  · rw [g3, Except.ok.injEq] at hx; subst hx; exact asFrame_ok a3
  · rw [g4, Except.ok.injEq] at hx; subst hx; exact asFrame_ok a4
  · rw [g5, Except.ok.injEq] at hx; subst hx; exact asFrame_ok a5
  · exact (getPert_ok p1).1 x hx
  · exact (getPert_ok p2).1 x hx

theorem getInputs_ok {fs : Files F} {ih : InputHandler.Handler F} {inp : Inputs F} (h : getInputs fs ih = .ok inp) :
    ∀ what ∈ ["gaspam", "nat_ch4", "nat_n2o", "concentrations", "emissions"], ∃ x, getData fs ih what = .ok x := by
  unfold getInputs at h
  simp only [bind_eq_ok] at h
  obtain ⟨x1, g1, gas, a1, x2, g2, ch4, a2, x3, g3, n2o, a3, x4, g4, conc, a4, x5, g5, emis, a5, -⟩ := h
  intro what hw
  simp only [List.mem_cons, List.not_mem_nil, or_false] at hw
  rcases hw with rfl | rfl | rfl | rfl | rfl
  exacts [⟨x1, g1⟩, ⟨x2, g2⟩, ⟨x3, g3⟩, ⟨x4, g4⟩, ⟨x5, g5⟩]

/-- **C74** A run with gases. The object was made from inputs in which everything configured as data, and everything read
from a configured file, stands in the place of its name; nothing is perturbed unless a perturbation is configured. -/
theorem C74_gas_run {cops : CarbonOps F κ} {tops : ThermalOps F τ} {fs : Files F} {c : Dict (CfgVal F)} {d : Driver F κ}
    (hc : WF c) (h : build cops tops fs c = .ok d) {g : Handler.Handler F κ} (hg : d.source = .handler g) :
    ∃ inp : Inputs F, (∃ p, construct cops inp (some p) none = .ok g) ∧
      (∀ what ∈ gasInputs, ∀ x, NoFile c what → DataIs c what x → UsedFor inp what x) ∧
      (∀ what ∈ gasInputs, ∀ p, FileIs c what p → fs.present p = true → ∀ ih : InputHandler.Handler F,
        ih.nystart = d.nystart → ih.nyend = d.nyend → ∀ x, readFile fs ih what p = .ok x → UsedFor inp what x) ∧
      (NoFile c "perturb_em" → NoData c "perturb_em" → inp.pertEm = none) ∧
      (NoFile c "perturb_forc" → NoData c "perturb_forc" → inp.pertForc = none) := by
  obtain ⟨B⟩ := built hc h
  have hs := B.source
  rw [hg] at hs
  unfold buildSource at hs
  by_cases ho : optionalPam B.ih "forc" = true
  · rw [if_pos ho] at hs
    simp only [bind_eq_ok] at hs
    obtain ⟨x, -, f, -, hf⟩ := hs
    rw [pure_ok, Except.ok.injEq] at hf
    cases hf
  rw [if_neg ho] at hs
  simp only [bind_eq_ok] at hs
  obtain ⟨p, -, inp, hi, h1, hk, he⟩ := hs
  rw [pure_ok, Except.ok.injEq, Source.handler.injEq] at he
  subst he
  obtain ⟨hu, hpe, hpf, -⟩ := inputs_used hi
  have hin : ∀ what ∈ gasInputs, what ∈ inputs ∧ what ∉ solarVolcanic ∧ what ++ "_file" ∉ driverKeys ∧ what ++ "_data" ∉ driverKeys := by
    decide
  have hno : ∀ what ∈ ["perturb_em", "perturb_forc"], NoFile c what → NoData c what → getData fs B.ih what = .error .keyError := by
    intro what hw h1 h2
    have hw' : what ∈ gasInputs ∧ what ∈ noDefault := by clear * - hw; revert what; decide
    obtain ⟨-, -, k1, k2⟩ := hin what hw'.1
    exact C47_mandatory B.wf B.create hw'.2 ((B.same _ k1).trans h1) ((B.same _ k2).trans h2)
  refine ⟨inp, ⟨_, hk⟩, ?_, ?_, fun a b => hpe (hno _ (by simp) a b), fun a b => hpf (hno _ (by simp) a b)⟩
  · intro what hw x hf hd
    obtain ⟨k0, k3, k1, k2⟩ := hin what hw
    exact hu what hw x (C47_data_used B.wf B.create k0 ((B.same _ k1).trans hf) ((B.same _ k2).trans hd) (.inr k3))
  · intro what hw q hf hp ih e1 e2 x hx
    obtain ⟨k0, k3, k1, k2⟩ := hin what hw
    refine hu what hw x ?_
    rw [C47_file_wins B.wf B.create k0 ((B.same _ k1).trans hf) hp, ← hx]
    unfold readFile
    rw [← B.start, ← B.stop, e1, e2]

/-- **C74** The inputs every run has: land use albedo, and with `sunvolc` equal to 1 solar and volcanic forcing (C48 is the other
case). -/
theorem C74_every_run {cops : CarbonOps F κ} {tops : ThermalOps F τ} {fs : Files F} {c : Dict (CfgVal F)} {d : Driver F κ}
    (hc : WF c) (h : build cops tops fs c = .ok d) {what : String} (hw : what ∈ ["rf_luc", "rf_sun", "rf_volc_n", "rf_volc_s"])
    (hs : SunVolc c ∨ what = "rf_luc") {x : Data F} (hf : NoFile c what) (hd : DataIs c what x) : UsedByAll d what x := by
  obtain ⟨B⟩ := built hc h
  have hk : what ∈ inputs ∧ what ++ "_file" ∉ driverKeys ∧ what ++ "_data" ∉ driverKeys := by
    clear * - hw; revert what; decide
  have hs' : SunVolc B.cfg ∨ what ∉ solarVolcanic := by
    rcases hs with ⟨v, hv, e⟩ | rfl
    · exact .inl ⟨v, (B.same _ (by decide)).trans hv, e⟩
    · exact .inr (by decide)
  have hx := C47_data_used B.wf B.create hk.1 ((B.same _ hk.2.1).trans hf) ((B.same _ hk.2.2).trans hd) hs'
  refine ⟨?_, ?_, ?_, ?_⟩ <;> intro e <;> subst e
  · rw [B.volcN, Except.ok.injEq] at hx; exact hx.symm
  · rw [B.volcS, Except.ok.injEq] at hx; exact hx.symm
  · obtain ⟨rs, h1, h2⟩ := B.sun
    rw [h1, Except.ok.injEq] at hx
    exact ⟨rs, hx.symm, firstColumn_ok h2⟩
  · obtain ⟨rs, h1, h2⟩ := B.luc
    rw [h1, Except.ok.injEq] at hx
    exact ⟨rs, hx.symm, firstColumn_ok h2⟩

/-- **C74** Configured forcing makes a forcing run with that forcing, whatever gas inputs are configured beside it. -/
theorem C74_forcing {cops : CarbonOps F κ} {tops : ThermalOps F τ} {fs : Files F} {c : Dict (CfgVal F)} {d : Driver F κ}
    (hc : WF c) (h : build cops tops fs c = .ok d) {x : Data F} (hf : NoFile c "forc") (hd : DataIs c "forc" x) :
    (∃ xs, x = .array xs ∧ d.source = .forcing (.array xs)) ∨ (∃ t, x = .table t ∧ d.source = .forcing (.frame t)) := by
  obtain ⟨B⟩ := built hc h
  have hx := C47_data_used B.wf B.create (by decide) ((B.same ("forc" ++ "_file") (by decide)).trans hf)
    ((B.same ("forc" ++ "_data") (by decide)).trans hd) (.inr (by decide))
  have ho : optionalPam B.ih "forc" = true := optional_of_ok hx
  have hs := B.source
  unfold buildSource at hs
  rw [if_pos ho, hx] at hs
  simp only [bind_ok, bind_eq_ok] at hs
  obtain ⟨f, h1, h2⟩ := hs
  rw [pure_ok, Except.ok.injEq] at h2
  unfold asForcing at h1
  split at h1
  · rename_i xs
    rw [Except.ok.injEq] at h1
    exact .inl ⟨xs, rfl, by rw [← h2, ← h1]⟩
  · rename_i t
    rw [Except.ok.injEq] at h1
    exact .inr ⟨t, rfl, by rw [← h2, ← h1]⟩
  · cases h1

/-- **C74** Without configured forcing the run computes its forcing from gases. -/
theorem C74_no_forcing {cops : CarbonOps F κ} {tops : ThermalOps F τ} {fs : Files F} {c : Dict (CfgVal F)} {d : Driver F κ}
    (hc : WF c) (h : build cops tops fs c = .ok d) (hf : NoFile c "forc") (hd : NoData c "forc") :
    ∃ g, d.source = .handler g := by
  obtain ⟨B⟩ := built hc h
  have hx := C47_mandatory B.wf B.create (what := "forc") (by decide) ((B.same _ (by decide)).trans hf)
    ((B.same _ (by decide)).trans hd)
  have hs := B.source
  unfold buildSource at hs
  by_cases ho : optionalPam B.ih "forc" = true
  · rw [if_pos ho, hx] at hs; cases hs
  · rw [if_neg ho] at hs
    simp only [bind_eq_ok] at hs
    obtain ⟨p, -, inp, -, g, -, he⟩ := hs
    rw [pure_ok, Except.ok.injEq] at he
    exact ⟨g, he.symm⟩

end

/-! ## The cases occur -/
open Verif.Exec Verif.Model.ThermalInst

/-- Natural emissions and perturbations given as data, the rest as files. -/
def usesCfg : Dict (CfgVal ℚ) :=
  toyCfg [("nat_n2o_data", .data (.table ⟨["N2O"], pyRange 2000 2005, fun _ y => y - 1990⟩)),
    ("nat_ch4_data", .data (.table ⟨["CH4"], pyRange 2000 2005, fun _ y => 2 * y⟩)),
    ("perturb_em_data", .data (.pert [⟨"CO2", 2003, 1⟩])), ("rf_luc_data", .data (.rows [[1], [2], [3], [4], [5]]))]

example : WF usesCfg ∧ (∃ d, build toyCarbon twoLayerOps toyFiles usesCfg = .ok d) ∧ NoFile usesCfg "forc" ∧ NoData usesCfg "forc" ∧
    NoFile usesCfg "nat_n2o" ∧ (∃ x, DataIs usesCfg "nat_n2o" x) ∧ FileIs usesCfg "emissions" "em.txt" ∧
    toyFiles.present "em.txt" = true ∧ NoFile usesCfg "rf_luc" ∧ DataIs usesCfg "rf_luc" (.rows [[1], [2], [3], [4], [5]]) := by
  refine ⟨?_, ?_, rfl, rfl, rfl, ⟨_, rfl⟩, rfl, ?_, rfl, rfl⟩
  · unfold WF; decide +kernel
  · rw [← okB_iff]; decide +kernel
  · decide +kernel

/-- A forcing run. -/
example : ∃ c : Dict (CfgVal ℚ), WF c ∧ (∃ d, build toyCarbon twoLayerOps toyFiles c = .ok d) ∧ NoFile c "forc" ∧
    DataIs c "forc" (.array [1, 2, 3, 4, 5]) := by
  refine ⟨toyCfg [("forc_data", .data (.array [1, 2, 3, 4, 5]))], ?_, ?_, rfl, rfl⟩
  · unfold WF; decide +kernel
  · rw [← okB_iff]; decide +kernel

end Verif.Props
