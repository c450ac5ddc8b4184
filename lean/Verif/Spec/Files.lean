import Verif.Py.Basic

/-!
# What a text table says

Reading a grid of fields column by column: independent of how the model writes one.
-/

namespace Verif.Spec

/-- The columns of a grid whose first line is the header: the name, and the fields below it. -/
def columnsOf (g : List (List String)) : List (String × List String) :=
  match g with
  | [] => []
  | header :: rows => header.zipIdx.map (fun p => (p.1, rows.map (fun r => r.getD p.2 "")))

/-- The rows below the header. -/
def rowCount (g : List (List String)) : Nat := g.length - 1

/-- The kinds of output files. -/
def fileKinds : List String := ["em", "conc", "forc", "carbon", "ohc", "rib", "temp", "sunvolc"]

/-- The files every run writes and the series of the results they hold. -/
def seriesFiles : List (String × List String) :=
  [("ohc", ["OHC700", "OHCTOT"]),
   ("rib", ["RIB_glob", "RIB_N", "RIB_S"]),
   ("temp", ["dT_glob", "dT_NH", "dT_SH", "dT_glob_air", "dT_NH_air", "dT_SH_air", "dT_glob_sea", "dT_NH_sea", "dT_SHsea"]),
   ("sunvolc", ["Solar_forcing", "Volcanic_forcing_NH", "Volcanic_forcing_SH"])]

end Verif.Spec
