import Verif.Props.C48
import Verif.Py.RealInst
import Mathlib.Algebra.Order.BigOperators.Group.List
import Mathlib.Tactic.Linarith
import Mathlib.Tactic.Positivity

/-!
# C65: units of input files; C66: prescribed forcing tables
-/

namespace Verif.Props
open Verif.Py Verif.Py.Dict Verif.Model Verif.Model.Handler Verif.Model.Driver Verif.Model.InputHandler Verif.Spec.Inputs

/-! ## C65 -/

section
variable {F κ τ : Type} [Add F] [Sub F] [Mul F] [Div F] [Neg F] [OfScientific F] [LT F] [DecidableLT F] [MathFn F]

/-- Rows of the gas table that are never compared. -/
def notCompared : List String := ["LANDUSE", "OTHER", "SO4_IND", "TROP_O3", "STRAT_O3", "STRAT_H2O", "BMB_AEROS"]

/-- The header of a file, with the unit of every column, gives every compared gas the same unit as the gas table. -/
def UnitsAgree (t : Dict (Gas F × String)) (h : Dict String) (unit : Gas F × String → String) : Prop :=
  ∀ gas row u, (gas, row) ∈ t → gas ∉ notCompared → Dict.get? h gas = some u → u = unit row

omit [Add F] [Sub F] [Mul F] [Div F] [Neg F] [OfScientific F] [LT F] [DecidableLT F] [MathFn F] in
theorem units_eq {gas : Dict (Gas F × String)} {h : Dict String} {unit : Gas F × String → String} {us : List String}
    (h1 : (Dict.keys gas).mapM (fun t => h.getE t) = .ok us) (h2 : us = gas.map (fun kv => unit kv.2)) :
    ∀ g row u, (g, row) ∈ gas → Dict.get? h g = some u → u = unit row := by
  subst h2
  rw [mapM_ok] at h1
  induction gas with
  | nil => intro g row u hm; cases hm
  | cons q gas ih =>
    obtain ⟨a, r⟩ := q
    simp only [Dict.keys, List.map_cons, List.cons.injEq] at h1
    intro g row u hm hu
    rcases List.mem_cons.1 hm with e | hm
    · rw [Prod.mk.injEq] at e
      obtain ⟨rfl, rfl⟩ := e
      have := h1.1
      unfold Dict.getE at this
      rw [hu] at this
      exact Except.ok.inj this
    · exact ih h1.2 g row u hm hu

/-- What is left of the unit check when the constructor has succeeded. -/
theorem units_checked {fs : Files F} {ih : InputHandler.Handler F} (h : checkGaspam fs ih = .ok ()) {t : Dict (Gas F × String)}
    (ht : getData fs ih "gaspam" = .ok (.gases t)) (ho : optionalPam ih "gaspam" = true) :
    (∃ b, checkEmissionUnits fs (t.filter (fun kv => decide (kv.1 ∉ uncheckedRows))) ih.cfg = .ok b ∧
      (b = false → checkConcUnits fs (t.filter (fun kv => decide (kv.1 ∉ uncheckedRows))) ih.cfg = .ok ())) ∧
    ∀ r ∈ notCompared, Dict.has t r = true := by
  unfold checkGaspam at h
  rw [if_pos ho, ht] at h
  simp only [bind_ok] at h
  split at h
  · cases h
  · rename_i hall
    rw [bind_eq_ok] at h
    obtain ⟨b, hb, h⟩ := h
    refine ⟨⟨b, hb, ?_⟩, ?_⟩
    · rintro rfl
      simpa using h
    · simp only [Bool.not_eq_true', Bool.not_eq_false, List.all_eq_true] at hall
      exact hall

/-- **C65** If the emission file has a column for every compared row of the gas table, the constructor succeeds only if
the units of the emission file and of the concentration file agree with the gas table. Missing part: if one gas is missing
from the emission file, nothing is compared (`C65_false`); data in memory are never compared. -/
theorem C65_partial {fs : Files F} {c : Dict (CfgVal F)} {ih : InputHandler.Handler F} (hc : WF c) (h : create fs c = .ok ih)
    {t : Dict (Gas F × String)} (ht : getData fs ih "gaspam" = .ok (.gases t)) (htw : WF t)
    {pe pc : String} (he : FileIs c "emissions" pe) (hcn : FileIs c "concentrations" pc) (hp : fs.present pe = true)
    (hpc : fs.present pc = true) {hd hdc : Dict String} (h1 : fs.header pe = .ok hd) (h2 : fs.header pc = .ok hdc)
    (hall : ∀ gas ∈ Dict.keys t, gas ∉ notCompared → gas ∈ Dict.keys hd) (hco : "CO2.1" ∉ Dict.keys t) :
    UnitsAgree t hd (fun row => row.2) ∧ UnitsAgree t hdc (fun row => row.1.concUnit) := by
  obtain ⟨S⟩ := create_stages h
  have filekey : ∀ what p, what ∈ inputs → FileIs c what p → fs.present p = true →
      Dict.get? ih.cfg (what ++ "_file") = some (.val (.str p)) := by
    intro what p hw hf hp
    obtain ⟨v', g1, g2⟩ := (stored S (file_not_natural hw)).2 _ (defaults_file hc S.defaults hw hf)
    rw [checkFile_present hp g1] at g2
    exact g2
  have ke := filekey "emissions" pe (by decide) he hp
  have kc := filekey "concentrations" pc (by decide) hcn hpc
  have ho : optionalPam ih "gaspam" = true := by
    by_contra ho
    unfold optionalPam at ho
    rw [Bool.or_eq_true, not_or] at ho
    have a1 : Dict.get? ih.cfg ("gaspam" ++ "_file") = none := by
      have := ho.1; unfold Dict.has at this; simpa using this
    have a2 : Dict.get? ih.cfg ("gaspam" ++ "_data") = none := by
      have := ho.2; unfold Dict.has at this; simpa using this
    rw [getData_none a1 a2] at ht
    cases ht
  obtain ⟨⟨b, hb, hc2⟩, -⟩ := units_checked S.gaspam ht ho
  have mem_gas : ∀ g row, (g, row) ∈ t → g ∉ notCompared → (g, row) ∈ t.filter (fun kv => decide (kv.1 ∉ uncheckedRows)) := by
    intro g row hm hn
    rw [List.mem_filter]
    exact ⟨hm, decide_eq_true hn⟩
  unfold checkEmissionUnits at hb
  rw [show Dict.get? ih.cfg "emissions_file" = some (.val (.str pe)) from ke] at hb
  simp only [CfgVal.path, bind_ok, h1] at hb
  split at hb
  · cases hb
  · have hall' : (Dict.keys (List.filter (fun kv => decide (kv.1 ∉ uncheckedRows)) t)).all
        (fun k => (Dict.erase hd "CO2.1").has k) = true := by
      rw [List.all_eq_true]
      intro g hg
      unfold Dict.keys at hg
      rw [List.mem_map] at hg
      obtain ⟨⟨g', row⟩, hm, rfl⟩ := hg
      rw [List.mem_filter, decide_eq_true_eq] at hm
      have hgt : g' ∈ Dict.keys t := List.mem_map_of_mem hm.1
      have hgh := hall g' hgt hm.2
      rw [← get?_isSome_iff] at hgh
      obtain ⟨v, hv⟩ := hgh
      have : Dict.get? (Dict.erase hd "CO2.1") g' = some v := by
        rw [get?_erase, if_neg (by rintro rfl; exact hco hgt)]
        exact hv
      unfold Dict.has
      rw [this]
      rfl
    have hne : (!(Dict.keys (List.filter (fun kv => decide (kv.1 ∉ uncheckedRows)) t)).all
        (fun k => (Dict.erase hd "CO2.1").has k)) = false := by rw [hall']; rfl
    rw [if_neg (by rw [hne]; decide), bind_eq_ok] at hb
    obtain ⟨us, hu, hb⟩ := hb
    split at hb
    · cases hb
    · rename_i hus
      rw [not_not] at hus
      rw [pure_ok, Except.ok.injEq] at hb
      have E := units_eq hu hus
      refine ⟨?_, ?_⟩
      · intro g row u hm hn hg
        refine E g row u (mem_gas g row hm hn) ?_
        rw [get?_erase, if_neg]
        · exact hg
        · rintro rfl
          exact hco (List.mem_map_of_mem hm)
      · have hcc := hc2 hb.symm
        unfold checkConcUnits at hcc
        rw [show Dict.get? ih.cfg "concentrations_file" = some (.val (.str pc)) from kc] at hcc
        simp only [CfgVal.path, bind_ok, h2] at hcc
        rw [bind_eq_ok] at hcc
        obtain ⟨us2, hu2, hcc⟩ := hcc
        split at hcc
        · cases hcc
        · rename_i hus2
          rw [not_not] at hus2
          have E2 := units_eq (unit := fun row => row.1.concUnit) hu2 hus2
          intro g row u hm hn hg
          refine E2 g row u ?_ hg
          rw [List.mem_filter]
          refine ⟨mem_gas g row hm hn, ?_⟩
          unfold Dict.has
          rw [hg]
          rfl

/-- **C65** A gas table that lacks one of seven special rows cannot be used at all. -/
theorem C65_rows_needed {fs : Files F} {c : Dict (CfgVal F)} {ih : InputHandler.Handler F} (h : create fs c = .ok ih)
    {t : Dict (Gas F × String)} (ht : getData fs ih "gaspam" = .ok (.gases t)) {r : String} (hr : r ∈ notCompared) :
    r ∈ Dict.keys t := by
  obtain ⟨S⟩ := create_stages h
  have ho : optionalPam ih "gaspam" = true := by
    by_contra ho
    unfold optionalPam at ho
    rw [Bool.or_eq_true, not_or] at ho
    have a1 : Dict.get? ih.cfg ("gaspam" ++ "_file") = none := by
      have := ho.1; unfold Dict.has at this; simpa using this
    have a2 : Dict.get? ih.cfg ("gaspam" ++ "_data") = none := by
      have := ho.2; unfold Dict.has at this; simpa using this
    rw [getData_none a1 a2] at ht
    cases ht
  rw [← has_iff]
  exact (units_checked S.gaspam ht ho).2 r hr

end

open Verif.Exec Verif.Model.ThermalInst

/-- Files in which one gas is missing from the emissions and the concentrations of methane have the wrong unit. -/
def badUnits : Files ℚ :=
  { toyFiles with header := fun p => .ok (if p = "em.txt" then Dict.erase emisHeader "BC" else
      [("CO2", "ppm"), ("CH4", "ppm"), ("N2O", "ppb"), ("CFC-11", "ppt")]) }

/-- **C65** as coded does not hold: methane concentrations in ppm are accepted for a gas table in ppb. -/
theorem C65_false : ∃ d : Driver ℚ ℚ, build toyCarbon twoLayerOps badUnits (toyCfg []) = .ok d ∧
    ∃ h t row, badUnits.header "conc.txt" = .ok h ∧ badUnits.gaspam "gas.txt" = .ok t ∧ Dict.get? t "CH4" = some row ∧
      Dict.get? h "CH4" = some "ppm" ∧ row.1.concUnit = "ppb" := by
  have hb : okB (build toyCarbon twoLayerOps badUnits (toyCfg [])) = true := by decide +kernel
  obtain ⟨d, hd⟩ := (okB_iff _).1 hb
  exact ⟨d, hd, _, _, _, rfl, rfl, rfl, rfl, rfl⟩

/-- The hypotheses of `C65_partial` occur. -/
example : WF (toyCfg []) ∧ (∃ ih, create toyFiles (toyCfg []) = .ok ih ∧ getData toyFiles ih "gaspam" = .ok (.gases fileGas)) ∧
    WF fileGas ∧ FileIs (toyCfg []) "emissions" "em.txt" ∧ FileIs (toyCfg []) "concentrations" "conc.txt" ∧
    toyFiles.header "em.txt" = .ok emisHeader ∧ (∀ gas ∈ Dict.keys fileGas, gas ∉ notCompared → gas ∈ Dict.keys emisHeader) ∧
    "CO2.1" ∉ Dict.keys fileGas := by
  have hb : okB (create toyFiles (toyCfg [])) = true := by decide +kernel
  obtain ⟨ih, hih⟩ := (okB_iff _).1 hb
  have hw : WF (toyCfg []) := by unfold WF; decide +kernel
  refine ⟨hw, ⟨ih, hih, ?_⟩, ?_, rfl, rfl, rfl, ?_, ?_⟩
  · rw [C47_file_wins hw hih (what := "gaspam") (p := "gas.txt") (by decide) rfl (by decide +kernel)]
    rfl
  · unfold WF; decide +kernel
  · decide +kernel
  · decide +kernel

/-! ## C66 -/

/-- A file with components and no total: the total is the sum over the components, and both hemispheres are the total. -/
theorem components_total {nan : ℝ} {t : Frame ℝ} (h1 : "total" ∉ t.cols) (h2 : ¬ ("FORC_NH" ∈ t.cols ∧ "FORC_SH" ∈ t.cols)) (y : ℤ) :
    ∀ c ∈ ["total", "FORC_NH", "FORC_SH"], (forcTotals nan t).cell c y = (t.cols.map (fun x => t.cell x y)).sum := by
  intro c hc
  unfold forcTotals
  rw [if_neg h1, if_neg h2]
  simp only [setColumn, fsum_eq_sum]
  simp only [List.mem_cons, List.not_mem_nil, or_false] at hc
  rcases hc with rfl | rfl | rfl <;> simp

theorem components_cols {F : Type} [Add F] [OfScientific F] {nan : F} {t : Frame F} (h1 : "total" ∉ t.cols)
    (h2 : ¬ ("FORC_NH" ∈ t.cols ∧ "FORC_SH" ∈ t.cols)) :
    (∀ c, c ∈ (forcTotals nan t).cols ↔ c ∈ t.cols ∨ c ∈ ["total", "FORC_NH", "FORC_SH"]) ∧ (forcTotals nan t).idx = t.idx := by
  unfold forcTotals
  rw [if_neg h1, if_neg h2]
  refine ⟨?_, rfl⟩
  intro c
  have step : ∀ (u : Frame F) (a : String) (v : ℤ → F), c ∈ (setColumn u a v).cols ↔ c ∈ u.cols ∨ c = a := by
    intro u a v
    unfold setColumn
    simp only
    split
    · rename_i h
      constructor
      · exact Or.inl
      · rintro (h' | rfl)
        · exact h'
        · exact h
    · rw [List.mem_append, List.mem_singleton]
  rw [step, step, step]
  simp only [List.mem_cons, List.not_mem_nil, or_false]
  tauto

/-- Adding the weight column changes no other column. -/
theorem weights_keep (t : Frame ℝ) {c : String} (hc : c ≠ "w_aero") (y : ℤ) : (forcWeights t).at' c y = t.at' c y := by
  unfold forcWeights
  split
  · rfl
  · simp only
    split
    · rfl
    · unfold setColumn Frame.at'
      have hm : c ∈ (if "w_aero" ∈ t.cols then t.cols else t.cols ++ ["w_aero"]) ↔ c ∈ t.cols := by
        split
        · rfl
        · rw [List.mem_append, List.mem_singleton]
          exact ⟨fun h => h.resolve_right hc, Or.inl⟩
      simp only
      by_cases h : c ∈ t.cols ∧ y ∈ t.idx
      · rw [if_pos h, if_pos ⟨hm.2 h.1, h.2⟩, if_neg hc]
      · rw [if_neg h, if_neg (fun e => h ⟨hm.1 e.1, e.2⟩)]

section
variable {κ τ : Type}

/-- The forcing table of the model object, for a configured forcing file with a header. -/
theorem forcing_built {cops : CarbonOps ℝ κ} {tops : ThermalOps ℝ τ} {fs : Files ℝ} {c : Dict (CfgVal ℝ)} {d : Driver ℝ κ}
    (hc : WF c) (h : build cops tops fs c = .ok d) {p : String} (hf : FileIs c "forc" p) (hp : fs.present p = true)
    {t : Frame ℝ} (h1 : fs.forcFirst p = .ok true) (h2 : fs.forcTable p = .ok t) :
    d.source = .forcing (.frame (forcWeights (forcTotals fs.nan t))) := by
  obtain ⟨B⟩ := built hc h
  have hf' : FileIs B.cfg "forc" p := (B.same _ (by decide)).trans hf
  have hg := C47_file_wins B.wf B.create (by decide) hf' hp
  obtain ⟨S⟩ := create_stages B.create
  have hk : Dict.get? B.ih.cfg ("forc" ++ "_file") = some (.val (.str p)) := by
    have hw : "forc" ∈ readMethods := by decide
    obtain ⟨v', g1, g2⟩ := (stored S (file_not_natural hw)).2 _ (defaults_file B.wf S.defaults hw hf')
    rw [checkFile_present hp g1] at g2
    exact g2
  have hs := B.source
  unfold buildSource at hs
  have ho : optionalPam B.ih "forc" = true := by
    unfold optionalPam Dict.has
    rw [hk]
    rfl
  have hr : readFile fs B.ih "forc" p = .ok (.table (forcWeights (forcTotals fs.nan t))) := by
    unfold readFile readForc
    rw [if_pos rfl, h1, bind_ok, if_pos rfl, h2, bind_ok, pure_ok]
  rw [if_pos ho, hg, hr, bind_ok] at hs
  simp only [asForcing, bind_ok, pure_ok, Except.ok.injEq] at hs
  exact hs.symm

/-- **C66** A prescribed forcing file with components and no total: in every year of the file, the run's total forcing is the
sum of the components, and both hemispheres get the total. Missing part: with hemispheric columns and no total the total is
not their mean (`C66_hemispheres_false`). -/
theorem C66_components_partial {cops : CarbonOps ℝ κ} {tops : ThermalOps ℝ τ} {fs : Files ℝ} {c : Dict (CfgVal ℝ)} {d : Driver ℝ κ}
    (hc : WF c) (h : build cops tops fs c = .ok d) {p : String} (hf : FileIs c "forc" p) (hp : fs.present p = true)
    {t : Frame ℝ} (h1 : fs.forcFirst p = .ok true) (h2 : fs.forcTable p = .ok t) (h3 : "total" ∉ t.cols)
    (h4 : ¬ ("FORC_NH" ∈ t.cols ∧ "FORC_SH" ∈ t.cols)) :
    ∃ u : Frame ℝ, d.source = .forcing (.frame u) ∧ ∀ y ∈ t.idx, ∀ x ∈ ["total", "FORC_NH", "FORC_SH"],
      u.at' x y = .ok ((t.cols.map (fun x => t.cell x y)).sum) := by
  refine ⟨_, forcing_built hc h hf hp h1 h2, ?_⟩
  intro y hy x hx
  rw [weights_keep _ (by rintro rfl; revert hx; decide)]
  unfold Frame.at'
  obtain ⟨hcols, hidx⟩ := components_cols (nan := fs.nan) h3 h4
  rw [if_pos ⟨(hcols x).2 (Or.inr hx), by rw [hidx]; exact hy⟩, components_total h3 h4 y x hx]

/-- **C66** as coded does not hold: with the two hemispheric columns and no total, the total is the missing value in every
year, not the mean of the hemispheres. -/
theorem C66_hemispheres_false {cops : CarbonOps ℝ κ} {tops : ThermalOps ℝ τ} {fs : Files ℝ} {c : Dict (CfgVal ℝ)} {d : Driver ℝ κ}
    (hc : WF c) (h : build cops tops fs c = .ok d) {p : String} (hf : FileIs c "forc" p) (hp : fs.present p = true)
    {t : Frame ℝ} (h1 : fs.forcFirst p = .ok true) (h2 : fs.forcTable p = .ok t) (h3 : "total" ∉ t.cols)
    (h4 : "FORC_NH" ∈ t.cols ∧ "FORC_SH" ∈ t.cols) :
    ∃ u : Frame ℝ, d.source = .forcing (.frame u) ∧ ∀ y ∈ t.idx, u.at' "total" y = .ok fs.nan := by
  refine ⟨_, forcing_built hc h hf hp h1 h2, ?_⟩
  intro y hy
  rw [weights_keep _ (by decide)]
  unfold forcTotals
  rw [if_neg h3, if_pos h4]
  unfold setColumn Frame.at'
  simp only
  rw [if_neg h3, if_pos ⟨by simp, hy⟩]
  simp

end

theorem aero_sub {cols : List String} : ∀ c ∈ aeroCols cols, c ∈ cols.filter (fun c => !(["total", "FORC_NH", "FORC_SH"].contains c)) := by
  have base : ∀ c ∈ ["SO2", "SO4_IND", "BC", "OC", "NOx", "NMVOC", "NH3", "BMB_AEROS"].filter (fun c => decide (c ∈ cols)),
      c ∈ cols.filter (fun c => !(["total", "FORC_NH", "FORC_SH"].contains c)) := by
    intro c hc
    rw [List.mem_filter, decide_eq_true_eq] at hc
    rw [List.mem_filter]
    refine ⟨hc.2, ?_⟩
    have := hc.1
    clear * - this
    revert c
    decide
  have reg : ∀ c ∈ cols.filter (fun c => ["SO", "BC", "OC", "BM"].any (fun p => c.toList.take 2 == p.toList)),
      c ∈ cols.filter (fun c => !(["total", "FORC_NH", "FORC_SH"].contains c)) := by
    intro c hc
    rw [List.mem_filter] at hc ⊢
    refine ⟨hc.1, ?_⟩
    have h2 := hc.2
    by_contra hn
    have hn' : c = "total" ∨ c = "FORC_NH" ∨ c = "FORC_SH" := by
      by_contra hc
      rw [not_or, not_or] at hc
      exact hn (by simp [hc.1, hc.2.1, hc.2.2])
    rcases hn' with rfl | rfl | rfl <;> revert h2 <;> decide +kernel
  unfold aeroCols
  simp only
  have key : ∀ (l acc : List String), (∀ c ∈ acc, c ∈ cols.filter (fun c => !(["total", "FORC_NH", "FORC_SH"].contains c))) →
      (∀ c ∈ l, c ∈ cols.filter (fun c => !(["total", "FORC_NH", "FORC_SH"].contains c))) →
      ∀ c ∈ l.foldl (fun acc c => if c ∈ acc then acc else acc ++ [c]) acc,
        c ∈ cols.filter (fun c => !(["total", "FORC_NH", "FORC_SH"].contains c)) := by
    intro l
    induction l with
    | nil => intro acc h1 _; exact h1
    | cons a l ih =>
      intro acc h1 h2
      rw [List.foldl_cons]
      apply ih
      · intro c hc
        split at hc
        · exact h1 c hc
        · rcases List.mem_append.1 hc with h | h
          · exact h1 c h
          · rw [List.mem_singleton.1 h]; exact h2 a List.mem_cons_self
      · exact fun c hc => h2 c (List.mem_cons_of_mem _ hc)
  exact key _ _ base reg

theorem aero_nodup {cols : List String} : (aeroCols cols).Nodup := by
  unfold aeroCols
  simp only
  have key : ∀ (l acc : List String), acc.Nodup → (l.foldl (fun acc c => if c ∈ acc then acc else acc ++ [c]) acc).Nodup := by
    intro l
    induction l with
    | nil => intro acc h; exact h
    | cons a l ih =>
      intro acc h
      rw [List.foldl_cons]
      apply ih
      split
      · exact h
      · rename_i hn
        rw [List.nodup_append]
        refine ⟨h, by simp, ?_⟩
        intro x hx y hy
        rw [List.mem_singleton.1 hy]
        rintro rfl
        exact hn hx
  apply key
  exact List.Nodup.filter _ (by decide)

/-- **C66** The aerosol weight of a forcing file is the share of the aerosol columns in the magnitude of all components (0
without forcing) and lies between 0 and 1. -/
theorem C66_weight {t : Frame ℝ} (h1 : "w_aero" ∉ t.cols) {y : ℤ} (hy : y ∈ t.idx) {w : ℝ}
    (h : (forcWeights t).at' "w_aero" y = .ok w) :
    let all := ((t.cols.filter (fun c => decide (c ∉ ["total", "FORC_NH", "FORC_SH"]))).map (fun c => |t.cell c y|)).sum
    0 ≤ w ∧ w ≤ 1 ∧ (all = 0 → w = 0) ∧ (0 < all → w * all = ((aeroCols t.cols).map (fun c => |t.cell c y|)).sum) := by
  have hfil : t.cols.filter (fun c => !(["total", "FORC_NH", "FORC_SH"].contains c)) =
      t.cols.filter (fun c => decide (c ∉ ["total", "FORC_NH", "FORC_SH"])) := by
    apply List.filter_congr
    intro c _
    simp
  have hsub : ∀ c ∈ aeroCols t.cols, c ∈ t.cols.filter (fun c => decide (c ∉ ["total", "FORC_NH", "FORC_SH"])) := by
    rw [← hfil]; exact aero_sub
  unfold forcWeights at h
  rw [if_neg h1, hfil] at h
  simp only at h
  split at h
  · unfold Frame.at' at h
    rw [if_neg (fun e => h1 e.1)] at h
    cases h
  · unfold setColumn Frame.at' at h
    simp only at h
    rw [if_neg h1, if_pos ⟨by simp, hy⟩, if_pos trivial, Except.ok.injEq] at h
    simp only [fsum_eq_sum, mabs] at h
    intro all
    have hall : ((t.cols.filter (fun c => decide (c ∉ ["total", "FORC_NH", "FORC_SH"]))).map (fun c => |t.cell c y|)).sum = all := rfl
    rw [hall] at h
    have hall0 : 0 ≤ all := by
      apply List.sum_nonneg
      intro x hx
      obtain ⟨c, -, rfl⟩ := List.mem_map.1 hx
      exact abs_nonneg _
    have hmag0 : 0 ≤ ((aeroCols t.cols).map (fun c => |t.cell c y|)).sum := by
      apply List.sum_nonneg
      intro x hx
      obtain ⟨c, -, rfl⟩ := List.mem_map.1 hx
      exact abs_nonneg _
    have hle : ((aeroCols t.cols).map (fun c => |t.cell c y|)).sum ≤ all := by
      have hsp : (aeroCols t.cols).Subperm (t.cols.filter (fun c => decide (c ∉ ["total", "FORC_NH", "FORC_SH"]))) :=
        List.subperm_of_subset aero_nodup hsub
      obtain ⟨l, hl1, hl2⟩ := hsp
      rw [← (hl1.map _).sum_eq]
      exact List.Sublist.sum_le_sum (hl2.map _) (by
        intro x hx
        obtain ⟨c, -, rfl⟩ := List.mem_map.1 hx
        exact abs_nonneg _)
    rw [show (0.0 : ℝ) = 0 by norm_num] at h
    by_cases hpos : 0 < all
    · rw [if_pos hpos] at h
      subst h
      refine ⟨by positivity, ?_, fun e => absurd e (ne_of_gt hpos), fun _ => div_mul_cancel₀ _ (ne_of_gt hpos)⟩
      rw [div_le_one hpos]
      exact hle
    · rw [if_neg hpos] at h
      subst h
      exact ⟨le_refl _, zero_le_one, fun _ => rfl, fun e => absurd e hpos⟩

/-- **C66** as coded does not hold in one more way: a solar column (its name begins with "SO") counts as aerosol. In a
file with the columns `SOLAR` and `CO2` the aerosol weight is the share of the sun. -/
theorem C66_solar_false : ∃ t : Frame ℝ, t.cols = ["SOLAR", "CO2"] ∧ ∀ y ∈ t.idx,
    (forcWeights (forcTotals 0 t)).at' "w_aero" y = .ok (1 / 4) := by
  refine ⟨⟨["SOLAR", "CO2"], [2000], fun c _ => if c = "SOLAR" then 1 else 3⟩, rfl, ?_⟩
  intro y hy
  have hy' : y = 2000 := by simpa using hy
  subst hy'
  have ha : aeroCols ["SOLAR", "CO2", "total", "FORC_NH", "FORC_SH"] = ["SOLAR"] := by decide +kernel
  have hf : forcTotals (0 : ℝ) (⟨["SOLAR", "CO2"], [2000], fun c _ => if c = "SOLAR" then 1 else 3⟩ : Frame ℝ) =
      ⟨["SOLAR", "CO2", "total", "FORC_NH", "FORC_SH"], [2000], (forcTotals (0 : ℝ)
        (⟨["SOLAR", "CO2"], [2000], fun c _ => if c = "SOLAR" then 1 else 3⟩ : Frame ℝ)).cell⟩ := by
    unfold forcTotals setColumn
    simp
  rw [hf]
  unfold forcWeights
  rw [if_neg (by decide)]
  simp only
  rw [ha]
  rw [if_neg (by decide)]
  unfold Frame.at' setColumn
  simp only
  rw [if_pos ⟨by simp, by simp⟩, if_pos trivial]
  have h1 : ["SOLAR", "CO2", "total", "FORC_NH", "FORC_SH"].filter (fun c => !(["total", "FORC_NH", "FORC_SH"].contains c)) =
      ["SOLAR", "CO2"] := by decide
  rw [h1]
  simp [forcTotals, setColumn, fsum]
  norm_num

/-- A model object from a forcing file, built by the kernel: the file has the two hemispheres and no total. -/
example : ∃ d, build toyCarbon twoLayerOps toyFiles (toyCfg [("forc_file", str "forc.txt")]) = .ok d ∧
    (match d.source with
      | .forcing (.frame u) => match u.at' "total" 2000 with
        | .ok v => decide (v = toyFiles.nan)
        | _ => false
      | _ => false) = true := by
  have hb : okB (build toyCarbon twoLayerOps toyFiles (toyCfg [("forc_file", str "forc.txt")])) = true := by decide +kernel
  obtain ⟨d, hd⟩ := (okB_iff _).1 hb
  refine ⟨d, hd, ?_⟩
  have e : (match build toyCarbon twoLayerOps toyFiles (toyCfg [("forc_file", str "forc.txt")]) with
    | .ok d => (match d.source with
      | .forcing (.frame u) => match u.at' "total" 2000 with
        | .ok v => decide (v = toyFiles.nan)
        | _ => false
      | _ => false)
    | .error _ => false) = true := by decide +kernel
  rw [hd] at e
  exact e

end Verif.Props
