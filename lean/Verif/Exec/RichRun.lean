import Verif.Py.RealInst
import Verif.Spec.Complete
import Verif.Lemmas.Frame
import Verif.Lemmas.Dict
import Mathlib.Tactic.NormNum

/-!
# Complete inputs with aerosols, ozone and water vapour over the real numbers

Years 1998-2003 with emissions from 2000 on; used by examples.
-/

namespace Verif.Exec
open Verif.Py Verif.Model Verif.Model.Handler Verif.Model.Driver Verif.Spec

noncomputable def richGas : Dict (Gas ℝ) :=
  [("CO2", ⟨"ppm", 1, 2, 1, 0, 0, 0, 1⟩), ("CH4", ⟨"ppb", 1, 2, 10, 120, 160, 0, 1⟩),
   ("N2O", ⟨"ppb", 1, 4, 120, 0, 0, 0, 1⟩), ("CFC-11", ⟨"ppt", 1/4, 20, 45, 0, 0, 0, 1⟩),
   ("SO2", ⟨"-", 0, 0, 0, 0, 0, 0, 1⟩), ("SO4_IND", ⟨"-", 0, 0, 0, 0, 0, 0, 2⟩),
   ("BC", ⟨"-", 1/3, 0, 0, 0, 0, 0, 1⟩), ("BMB_AEROS", ⟨"-", 0, 0, 0, 0, 0, 0, 1⟩),
   ("TROP_O3", ⟨"-", 0, 0, 0, 0, 0, 0, 1⟩), ("STRAT_O3", ⟨"-", 0, 0, 0, 0, 0, 0, 1⟩),
   ("STRAT_H2O", ⟨"-", 0, 0, 0, 0, 0, 0, 1⟩), ("LANDUSE", ⟨"-", 0, 0, 0, 0, 0, 0, 1⟩),
   ("SO2_ASIA", ⟨"-", 1/2, 0, 0, 0, 0, 0, 1⟩), ("BC_ASIA", ⟨"-", 1/5, 0, 0, 0, 0, 0, 1⟩)]

noncomputable def richInputs (concRun : Bool) : Inputs ℝ :=
  { gas := richGas
    natCh4 := ⟨["CH4"], pyRange 1998 2004, fun _ _ => 200⟩
    natN2o := ⟨["N2O"], pyRange 1998 2004, fun _ _ => 10⟩
    concIn := ⟨["CO2", "CH4", "N2O", "CFC-11"], pyRange 1995 2012, fun _ y => 300 + (y - 1995 : ℤ)⟩
    emis := ⟨["CO2_FF", "CO2_AFOLU", "CH4", "N2O", "CFC-11", "SO2", "BC", "BMB_AEROS_OC", "NOx", "CO", "NMVOC",
      "SO2_ASIA", "BC_ASIA"],
      pyRange 1995 2012, fun _ y => (y - 1990 : ℤ)⟩
    concRun := concRun
    pertEm := some [⟨"CO2", 2001, 3⟩]
    pertForc := some [⟨"CO2", 2002, 1⟩] }

noncomputable def richPam : Option (Dict (PyVal ℝ)) :=
  some [("nystart", .int 1998), ("nyend", .int 2003), ("emstart", .int 2000)]

noncomputable def richDriver {κ : Type} (h : Handler ℝ κ) : Driver ℝ κ :=
  { nystart := 1998, nyend := 2003, source := .handler h, feedbackList := some ["dtemp"],
    volcN := [[0], [-1], [0], [0], [0], [0]], volcS := [[0], [-1], [0], [0], [0], [0]],
    sun := [1, 1, 1, 1, 1, 1], luc := [2, 3, 3, 3, 3, 3], results := [] }

theorem rich_mem {t : String} {g : Gas ℝ} (h : Dict.get? richGas t = some g) : (t, g) ∈ richGas := Dict.mem_of_get? h

theorem rich_gases : CompleteGases richGas where
  once := by simp [richGas, Dict.keys]
  notTotal := by simp [richGas, Dict.keys]
  main := by
    intro t ht
    simp only [List.mem_cons, List.not_mem_nil, or_false] at ht
    rcases ht with rfl | rfl | rfl <;> exact ⟨_, rfl, by decide⟩
  stratO3 := by simp [richGas, Dict.keys]
  names := by
    intro t ht
    simp only [richGas, Dict.keys, List.map_cons, List.map_nil, List.mem_cons, List.not_mem_nil, or_false] at ht
    rcases ht with rfl | rfl | rfl | rfl | rfl | rfl | rfl | rfl | rfl | rfl | rfl | rfl | rfl | rfl
    case inr.inr.inr.inl => exact ⟨(some 3, none), by decide +kernel, fun _ => ⟨_, rfl, by decide⟩⟩
    all_goals exact ⟨(none, none), by decide +kernel, fun h => absurd rfl h⟩
  efficiency := by
    intro t g hg hu ha ho
    have hm := rich_mem hg
    simp only [richGas, List.mem_cons, List.not_mem_nil, or_false, Prod.mk.injEq] at hm
    rcases hm with ⟨rfl, rfl⟩ | ⟨rfl, rfl⟩ | ⟨rfl, rfl⟩ | ⟨rfl, rfl⟩ | ⟨rfl, rfl⟩ | ⟨rfl, rfl⟩ | ⟨rfl, rfl⟩ | ⟨rfl, rfl⟩ |
      ⟨rfl, rfl⟩ | ⟨rfl, rfl⟩ | ⟨rfl, rfl⟩ | ⟨rfl, rfl⟩ | ⟨rfl, rfl⟩ | ⟨rfl, rfl⟩
    case inr.inr.inr.inr.inr.inr.inl => exact absurd (Or.inr ⟨"BC", by decide, by decide⟩) ha
    case inr.inr.inr.inr.inr.inr.inr.inr.inr.inr.inr.inr.inl =>
      exact absurd (Or.inr ⟨"SO", by decide, by decide⟩) ha
    case inr.inr.inr.inr.inr.inr.inr.inr.inr.inr.inr.inr.inr =>
      exact absurd (Or.inr ⟨"BC", by decide, by decide⟩) ha
    all_goals first | (revert hu; decide) | (rw [misEq]; norm_num)

theorem rich_conc {t : String} (h : HasConc richGas t) : t ∈ ["CO2", "CH4", "N2O", "CFC-11"] := by
  obtain ⟨g, hg, hu⟩ := h
  have hm := rich_mem hg
  simp only [richGas, List.mem_cons, List.not_mem_nil, or_false, Prod.mk.injEq] at hm
  rcases hm with ⟨rfl, rfl⟩ | ⟨rfl, rfl⟩ | ⟨rfl, rfl⟩ | ⟨rfl, rfl⟩ | ⟨rfl, rfl⟩ | ⟨rfl, rfl⟩ | ⟨rfl, rfl⟩ | ⟨rfl, rfl⟩ |
      ⟨rfl, rfl⟩ | ⟨rfl, rfl⟩ | ⟨rfl, rfl⟩ | ⟨rfl, rfl⟩ | ⟨rfl, rfl⟩ | ⟨rfl, rfl⟩ <;> first | decide | exact absurd rfl hu

theorem rich_tables (b : Bool) : CompleteTables (richInputs b) 1998 2000 2003 2010 where
  order := by decide
  emStart := by decide
  start := fun _ => by decide
  concRows := ⟨1995, 2012, rfl, by decide, by decide⟩
  concCols := fun t h => rich_conc h
  emisRows := ⟨1995, 2012, rfl, by decide, by decide⟩
  emisCo2 := fun _ => by simp [richInputs]
  emisGas := by
    intro _ t h hne
    have := rich_conc h
    simp only [List.mem_cons, List.not_mem_nil, or_false] at this
    rcases this with rfl | rfl | rfl | rfl
    · exact absurd rfl hne
    all_goals simp [richInputs]
  aerosolAlpha := by
    intro t g hg hu ha hal
    have hm := rich_mem hg
    simp only [richGas, List.mem_cons, List.not_mem_nil, or_false, Prod.mk.injEq] at hm
    rcases hm with ⟨rfl, rfl⟩ | ⟨rfl, rfl⟩ | ⟨rfl, rfl⟩ | ⟨rfl, rfl⟩ | ⟨rfl, rfl⟩ | ⟨rfl, rfl⟩ | ⟨rfl, rfl⟩ | ⟨rfl, rfl⟩ |
      ⟨rfl, rfl⟩ | ⟨rfl, rfl⟩ | ⟨rfl, rfl⟩ | ⟨rfl, rfl⟩ | ⟨rfl, rfl⟩ | ⟨rfl, rfl⟩
    case inr.inr.inr.inr.inr.inr.inl => simp [richInputs]
    case inr.inr.inr.inr.inr.inr.inr.inr.inr.inr.inr.inr.inl => simp [richInputs]
    case inr.inr.inr.inr.inr.inr.inr.inr.inr.inr.inr.inr.inr => simp [richInputs]
    all_goals
      first
      | (exfalso; clear hg; revert hu; decide)
      | (exfalso; revert hal; rw [Bool.eq_false_iff, Ne, misEq]; norm_num)
  aerosolRef := by
    intro t g e hg hu ha hal he
    have hm := rich_mem hg
    simp only [richGas, List.mem_cons, List.not_mem_nil, or_false, Prod.mk.injEq] at hm
    rcases hm with ⟨rfl, rfl⟩ | ⟨rfl, rfl⟩ | ⟨rfl, rfl⟩ | ⟨rfl, rfl⟩ | ⟨rfl, rfl⟩ | ⟨rfl, rfl⟩ | ⟨rfl, rfl⟩ | ⟨rfl, rfl⟩ |
      ⟨rfl, rfl⟩ | ⟨rfl, rfl⟩ | ⟨rfl, rfl⟩ | ⟨rfl, rfl⟩ | ⟨rfl, rfl⟩ | ⟨rfl, rfl⟩ <;> simp [drivingEmission] at he <;> subst he <;> simp [richInputs]
  ozone := fun _ => ⟨by simp [richInputs], by simp [richInputs, mem_pyRange], by simp [richInputs, mem_pyRange]⟩
  methane := fun _ => ⟨by simp [richInputs], by simp [richInputs, mem_pyRange]⟩
  natural := fun _ => ⟨by simp [richInputs], by simp [richInputs], fun y h1 h2 => by
    simp only [richInputs, mem_pyRange]; omega⟩
  pertEm := by
    intro rows h r hr
    simp only [richInputs, Option.some.injEq] at h
    subst h
    simp only [List.mem_cons, List.not_mem_nil, or_false] at hr
    subst hr
    exact ⟨by simp [richInputs, mem_pyRange], Or.inr ⟨rfl, by simp [richInputs]⟩⟩
  pertForc := by
    intro rows h r hr
    simp only [richInputs, Option.some.injEq] at h
    subst h
    simp only [List.mem_cons, List.not_mem_nil, or_false] at hr
    subst hr
    exact ⟨by decide, by decide⟩

theorem rich_series {κ : Type} (h : Handler ℝ κ) : CompleteSeries (richDriver h) where
  sun := by simp [richDriver]
  luc := by simp [richDriver]
  volcN := by simp [richDriver]
  volcS := by simp [richDriver]
  months := by
    intro k vn vs h1 h2
    simp only [richDriver] at h1 h2
    rw [h1, Option.some.injEq] at h2
    refine ⟨by rw [h2], ?_⟩
    have := List.mem_of_getElem? h1
    simp only [List.mem_cons, List.not_mem_nil, or_false] at this
    rcases this with rfl | rfl | rfl | rfl | rfl | rfl <;> simp

end Verif.Exec
