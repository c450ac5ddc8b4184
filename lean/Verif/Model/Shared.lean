import Verif.Model.InputHandler

/-!
# What an instance leaves behind in the caller's configuration

The configuration dictionary handed to `CICEROSCM(cfg)` and the tables in it are the caller's objects. The constructor
writes into the dictionary (ciceroscm.py:101), emission perturbations are added in place to the emission table
(perturbations.py:86, concentrations_emissions_handler.py:193-196), and an emission-driven run writes the natural
emissions of methane and nitrous oxide into the gas table (concentrations_emissions_handler.py:185, 795, 798). The input
handler returns data given in the configuration as they are, without a copy (input_handler.py:500-502), while a file is
read anew each time.
-/

namespace Verif.Model.InputHandler
open Verif.Py Verif.Model Verif.Model.Handler Verif.Model.Driver

variable {F κ : Type}

/-- ciceroscm.py:96-101: the caller's dictionary after `cfg.update(self.cfg)`. -/
def updatedCfg (cfg : Dict (CfgVal F)) : Dict (CfgVal F) :=
  cfg.update ((Factory.driverCfg (plain cfg)).map (fun kv => (kv.1, .val kv.2)))

/-- The caller's gas table when the handler's rows are those of `gas`: the same object, with the column of units the
handler does not touch. -/
def writtenGas (t : Dict (Gas F × String)) (gas : Dict (Gas F)) : Dict (Gas F × String) :=
  List.zipWith (fun a b => (a.1, (b.2, a.2.2))) t gas

/-- The emission table is the caller's, unless it was read from a file (input_handler.py:489-502). -/
def sharedEmis (cfg : Dict (CfgVal F)) (h : Handler.Handler F κ) : Dict (CfgVal F) :=
  if cfg.has "emissions_file" then cfg
  else match cfg.get? "emissions_data" with
    | some (.data (.table _)) => cfg.set "emissions_data" (.data (.table h.emis))
    | _ => cfg

/-- The gas table is the caller's, unless it was read from a file. -/
def sharedGas (cfg : Dict (CfgVal F)) (h : Handler.Handler F κ) : Dict (CfgVal F) :=
  if cfg.has "gaspam_file" then cfg
  else match cfg.get? "gaspam_data" with
    | some (.data (.gases t)) => cfg.set "gaspam_data" (.data (.gases (writtenGas t h.gas)))
    | _ => cfg

/-- The caller's configuration when an instance built from it has the given source of forcing. -/
def leftBehind (cfg : Dict (CfgVal F)) (src : Source F κ) : Dict (CfgVal F) :=
  match src with
  | .forcing _ => updatedCfg cfg
  | .handler h => sharedGas (sharedEmis (updatedCfg cfg) h) h

end Verif.Model.InputHandler
