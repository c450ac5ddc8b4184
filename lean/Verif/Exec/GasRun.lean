import Verif.Exec.RichRun
import Verif.Spec.OneGas

/-!
# Inputs with one gas without chlorine and bromine, whose concentrations grow by `s` per year; used by examples
-/

namespace Verif.Exec
open Verif.Py Verif.Model Verif.Model.Handler Verif.Model.Driver Verif.Spec

noncomputable def sulfurGas : Dict (Gas ℝ) :=
  [("CO2", ⟨"ppm", 1, 2, 1, 0, 0, 0, 1⟩), ("CH4", ⟨"ppb", 1, 2, 10, 120, 160, 0, 1⟩),
   ("N2O", ⟨"ppb", 1, 4, 120, 0, 0, 0, 1⟩), ("SF6", ⟨"ppt", 1/2, 25, 3200, 0, 0, 0, 1⟩),
   ("CFC-11", ⟨"ppt", 1/4, 20, 45, 0, 0, 0, 1⟩), ("BC", ⟨"-", 1/3, 0, 0, 0, 0, 0, 1⟩),
   ("TROP_O3", ⟨"-", 0, 0, 0, 0, 0, 0, 1⟩), ("STRAT_O3", ⟨"-", 0, 0, 0, 0, 0, 0, 1⟩)]

noncomputable def sulfurInputs (s : ℝ) : Inputs ℝ :=
  { gas := sulfurGas
    natCh4 := ⟨["CH4"], pyRange 1998 2004, fun _ _ => 200⟩
    natN2o := ⟨["N2O"], pyRange 1998 2004, fun _ _ => 10⟩
    concIn := ⟨["CO2", "CH4", "N2O", "SF6", "CFC-11"], pyRange 1995 2012,
      fun c y => if c = "SF6" then s * ((y - 1995 : ℤ) : ℝ) else 300 + (y - 1995 : ℤ)⟩
    emis := ⟨["CO2_FF", "CO2_AFOLU", "CH4", "N2O", "SF6", "CFC-11", "BC", "BMB_AEROS_OC", "NOx", "CO", "NMVOC"],
      pyRange 1995 2012, fun _ y => (y - 1990 : ℤ)⟩
    concRun := true
    pertEm := none
    pertForc := some [⟨"CO2", 2002, 1⟩] }

theorem sulfur_gases : CompleteGases sulfurGas where
  once := by simp [sulfurGas, Dict.keys]
  notTotal := by simp [sulfurGas, Dict.keys]
  main := by
    intro t ht
    simp only [List.mem_cons, List.not_mem_nil, or_false] at ht
    rcases ht with rfl | rfl | rfl <;> exact ⟨_, rfl, by decide⟩
  stratO3 := by simp [sulfurGas, Dict.keys]
  names := by
    intro t ht
    simp only [sulfurGas, Dict.keys, List.map_cons, List.map_nil, List.mem_cons, List.not_mem_nil, or_false] at ht
    rcases ht with rfl | rfl | rfl | rfl | rfl | rfl | rfl | rfl
    case inr.inr.inr.inr.inl => exact ⟨(some 3, none), by decide +kernel, fun _ => ⟨_, rfl, by decide⟩⟩
    all_goals exact ⟨(none, none), by decide +kernel, fun h => absurd rfl h⟩
  efficiency := by
    intro t g hg hu ha ho
    have hm := Dict.mem_of_get? hg
    simp only [sulfurGas, List.mem_cons, List.not_mem_nil, or_false, Prod.mk.injEq] at hm
    rcases hm with ⟨rfl, rfl⟩ | ⟨rfl, rfl⟩ | ⟨rfl, rfl⟩ | ⟨rfl, rfl⟩ | ⟨rfl, rfl⟩ | ⟨rfl, rfl⟩ | ⟨rfl, rfl⟩ | ⟨rfl, rfl⟩
    case inr.inr.inr.inr.inr.inl => exact absurd (Or.inr ⟨"BC", by decide, by decide⟩) ha
    all_goals first | (revert hu; decide) | (rw [misEq]; norm_num)

theorem sulfur_conc {t : String} (h : HasConc sulfurGas t) : t ∈ ["CO2", "CH4", "N2O", "SF6", "CFC-11"] := by
  obtain ⟨g, hg, hu⟩ := h
  have hm := Dict.mem_of_get? hg
  simp only [sulfurGas, List.mem_cons, List.not_mem_nil, or_false, Prod.mk.injEq] at hm
  rcases hm with ⟨rfl, rfl⟩ | ⟨rfl, rfl⟩ | ⟨rfl, rfl⟩ | ⟨rfl, rfl⟩ | ⟨rfl, rfl⟩ | ⟨rfl, rfl⟩ | ⟨rfl, rfl⟩ | ⟨rfl, rfl⟩ <;>
    first | decide | exact absurd rfl hu

theorem sulfur_tables (s : ℝ) : CompleteTables (sulfurInputs s) 1998 2000 2003 2010 where
  order := by decide
  emStart := by decide
  start := fun _ => by decide
  concRows := ⟨1995, 2012, rfl, by decide, by decide⟩
  concCols := fun t h => sulfur_conc h
  emisRows := ⟨1995, 2012, rfl, by decide, by decide⟩
  emisCo2 := fun _ => by simp [sulfurInputs]
  emisGas := by
    intro _ t h hne
    have := sulfur_conc h
    simp only [List.mem_cons, List.not_mem_nil, or_false] at this
    rcases this with rfl | rfl | rfl | rfl | rfl
    · exact absurd rfl hne
    all_goals simp [sulfurInputs]
  aerosolAlpha := by
    intro t g hg hu ha hal
    have hm := Dict.mem_of_get? hg
    simp only [sulfurInputs, sulfurGas, List.mem_cons, List.not_mem_nil, or_false, Prod.mk.injEq] at hm
    rcases hm with ⟨rfl, rfl⟩ | ⟨rfl, rfl⟩ | ⟨rfl, rfl⟩ | ⟨rfl, rfl⟩ | ⟨rfl, rfl⟩ | ⟨rfl, rfl⟩ | ⟨rfl, rfl⟩ | ⟨rfl, rfl⟩
    case inr.inr.inr.inr.inr.inl => simp [sulfurInputs]
    all_goals
      first
      | (exfalso; clear hg; revert hu; decide)
      | (exfalso; revert hal; rw [Bool.eq_false_iff, Ne, misEq]; norm_num)
  aerosolRef := by
    intro t g e hg hu ha hal he
    have hm := Dict.mem_of_get? hg
    simp only [sulfurInputs, sulfurGas, List.mem_cons, List.not_mem_nil, or_false, Prod.mk.injEq] at hm
    rcases hm with ⟨rfl, rfl⟩ | ⟨rfl, rfl⟩ | ⟨rfl, rfl⟩ | ⟨rfl, rfl⟩ | ⟨rfl, rfl⟩ | ⟨rfl, rfl⟩ | ⟨rfl, rfl⟩ | ⟨rfl, rfl⟩ <;>
      simp [drivingEmission] at he <;> subst he <;> simp [sulfurInputs]
  ozone := fun _ => ⟨by simp [sulfurInputs], by simp [sulfurInputs, mem_pyRange], by simp [sulfurInputs, mem_pyRange]⟩
  methane := fun _ => ⟨by simp [sulfurInputs], by simp [sulfurInputs, mem_pyRange]⟩
  natural := fun _ => ⟨by simp [sulfurInputs], by simp [sulfurInputs], fun y h1 h2 => by
    simp only [sulfurInputs, mem_pyRange]; omega⟩
  pertEm := by
    intro rows h
    simp [sulfurInputs] at h
  pertForc := by
    intro rows h r hr
    simp only [sulfurInputs, Option.some.injEq] at h
    subst h
    simp only [List.mem_cons, List.not_mem_nil, or_false] at hr
    subst hr
    exact ⟨by decide, by decide⟩

theorem sulfur_only (s s' : ℝ) : OnlyConcOf "SF6" (sulfurInputs s) (sulfurInputs s') := by
  refine ⟨rfl, rfl, rfl, rfl, rfl, rfl, rfl, rfl, rfl, rfl, ?_⟩
  intro c hc y
  simp [sulfurInputs, hc]

theorem sulfur_plain (s : ℝ) : PlainGas (sulfurInputs s).gas "SF6" ⟨"ppt", 1/2, 25, 3200, 0, 0, 0, 1⟩ :=
  ⟨rfl, by decide, by decide, by decide, by decide, by decide, by decide +kernel⟩

end Verif.Exec
