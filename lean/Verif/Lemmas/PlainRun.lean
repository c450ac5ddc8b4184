import Verif.Exec.RealRun
import Verif.Props.C12

/-! # The small real run meets the hypotheses of the theorems about runs -/

namespace Verif.Props
open Verif.Py Verif.Py.Dict Verif.Model Verif.Model.Handler Verif.Model.Driver Verif.Spec

theorem plain_case (b : Bool) : ∃ h d1 g,
    RunTables (Exec.plainInputs b).concIn (Exec.plainInputs b).emis
      (Dict.set (Factory.checkPamset Exec.plainPam) "conc_run" (.bool (Exec.plainInputs b).concRun)) 2000 2002 2003 ∧
    construct Exec.plainCarbon (Exec.plainInputs b) Exec.plainPam none = .ok h ∧
    run Exec.plainCarbon Exec.plainThermal (Exec.plainDriver h) ⟨none, none, none⟩ = .ok (d1, ()) ∧
    d1.source = .handler g ∧ g.gas.keys = (Exec.plainInputs b).gas.keys := by
  obtain ⟨h, d1, hc, hr⟩ := Exec.plain_runs b
  obtain ⟨g0, g, hre, hg, hs, hkeys, -⟩ := run_handler_spec rfl hr
  have ht : RunTables (Exec.plainInputs b).concIn (Exec.plainInputs b).emis
      (Dict.set (Factory.checkPamset Exec.plainPam) "conc_run" (.bool (Exec.plainInputs b).concRun)) 2000 2002 2003 :=
    ⟨rfl, rfl, rfl, ⟨2000, 2006, rfl, by omega, by omega⟩, ⟨2000, 2006, rfl, by omega, by omega⟩,
      by omega, fun _ => by omega⟩
  obtain ⟨_, _, _, _, _, _, hgas, _, _, _, _⟩ := constructed hc ht
  obtain ⟨pam, c, -, -, rfl⟩ := reset_spec hre
  exact ⟨h, d1, g, ht, hc, hr, hg, by rw [hkeys, ← hgas]⟩

theorem plain_keys (b : Bool) : (Exec.plainInputs b).gas.keys.Nodup ∧
    "Total_forcing" ∉ (Exec.plainInputs b).gas.keys := by
  constructor <;> simp [Exec.plainInputs, Exec.plainGas, Dict.keys]

end Verif.Props
