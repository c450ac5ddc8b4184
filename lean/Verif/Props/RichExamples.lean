import Verif.Props.C06_run
import Verif.Props.C62

/-!
# Concrete cases for theorems about runs with aerosols and ozone

The last of three runs of the instance of `Verif/Exec/RichRun.lean` meets the hypotheses of theorems whose
own files come before the proof that such runs complete (`C63_box`).
-/

namespace Verif.Props
open Verif.Py Verif.Py.Dict Verif.Model Verif.Model.Handler Verif.Model.Driver Verif.Spec Verif.Exec
  Verif.Model.ThermalInst Verif.Model.CarbonInst

/-- `C59_run_ozone` in 2001: there is a reported concentration, and it is the documented one. -/
example (b : Bool) : ∃ (g : Handler ℝ (BoxM ℝ)) (D : ForcingData) (ref : ℤ) (m0 : ℝ) (emis : Frame ℝ),
    Observed g (richInputs b) emis 3 1998 2001 D ∧ (richInputs b).concIn.at' "CH4" ref = .ok m0 ∧
    ∃ c ∈ reportConc g, c.1 = "TROP_O3" ∧ c.2 2001 = some (D.ozoneConc ref m0) := by
  obtain ⟨h0, d, d1, t, g, hc, ht, ha, hr, hg⟩ := rich_case b
  obtain ⟨emis, ref, m0, he, href, hm0, h⟩ := C59_run_ozone (d0 := richDriver h0) (rich_once b).1 (rich_once b).2 ht hc
    rfl ha hr hg (y := 2001) (by simp [richDriver]) (by simp [richDriver])
    (x := ⟨"-", 0, 0, 0, 0, 0, 0, 1⟩) ⟨_, rfl, Or.inl rfl, by decide, by decide⟩ rfl rfl
  have hk : g.gas.keys.Nodup := by
    obtain ⟨emis', a, b', c, fb, luc, sun, r, Y, -⟩ := run_year yearLaw_real (d0 := richDriver h0) ht hc rfl ha hr hg
      (z := 2001) (by simp [richDriver]) (by simp [richDriver])
    rw [Y.keysG]
    exact (rich_once b).1
  obtain ⟨D, hD⟩ := observed_exists g (richInputs b) emis 3 1998 2001 hk
  exact ⟨g, D, ref, m0, emis, hD, hm0, h D 3 hD⟩

/-- `C62_early_table_fails`: the emission table of this instance begins in 1995, three years before the
start year. -/
example (b : Bool) : ∃ h0 d1 g, construct boxOps (richInputs b) richPam none = .ok h0 ∧
    (∃ ps, After boxOps twoLayerOps (richDriver h0) ps d1) ∧ d1.source = .handler g ∧
    reportEmis g = .error .valueError := by
  obtain ⟨h0, d, d1, t, g, hc, ht, ha, hr, hg⟩ := rich_case b
  refine ⟨h0, d1, g, hc, ⟨_, .next ha hr⟩, hg, ?_⟩
  exact C62_early_table_fails (d0 := richDriver h0) ht hc rfl ha hr hg (k := 1995) (l := 2012) rfl
    (by simp [richDriver]) (by simp [richDriver])

end Verif.Props
