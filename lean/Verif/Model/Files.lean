import Verif.Model.Results

/-!
# The output files of a run

The end of `_run` when the results are not asked for as a dictionary (ciceroscm.py:321-332),
`ConcentrationsEmissionsHandler.write_output_to_files` (concentrations_emissions_handler.py:890-964) and
`CICEROSCM.write_data_to_file` (ciceroscm.py:334-430).

A file is the grid of its fields, header first; the tab between fields and the quoting of fields that contain a tab are not
modelled. `fmt` stands for `%.5e`. The order of writes is kept, so that an exception leaves the files written before it. The
output folder is taken to exist; plots are not modelled.
-/

namespace Verif.Model.Files
open Verif.Py Verif.Model Verif.Model.Handler Verif.Model.Driver Verif.Model.CarbonOut Verif.Model.Results

/-- A file: its lines, each a list of fields. -/
abbrev Grid := List (List String)

/-- `os.path.join(a, b)` on posix, as used in ciceroscm.py:353-355, 388 and concentrations_emissions_handler.py:909-912. -/
def joinPath (a b : String) : String :=
  if Reader.startsWith b "/" then b
  else if a = "" ∨ Reader.endsWith a "/" then a ++ b
  else a ++ "/" ++ b

/-- The entries of the run's configuration the writers look at: `output_folder`, `output_prefix`, and whether the key
`carbon_cycle_outputs` is there (ciceroscm.py:351-355, 379-382, concentrations_emissions_handler.py:909-921, 951). -/
structure OutCfg where
  folder : Option String
  pre : Option String
  carbon : Bool

/-- The path of one file: ciceroscm.py:351-355, 379-382, 386-387 and concentrations_emissions_handler.py:908-921, 931-935.
Both writers use the same rules. -/
def OutCfg.path (c : OutCfg) (cwd short : String) : String :=
  joinPath (joinPath cwd (c.folder.getD "output")) (c.pre.getD "output" ++ "_" ++ short ++ ".txt")

/-- `df.to_csv(..., sep="\t", index=False, float_format="%.5e")` of a table with `n` rows whose columns are given as
fields: concentrations_emissions_handler.py:931-939. -/
def toCsv (n : Nat) (cols : List (String × List String)) : Grid :=
  cols.map Prod.fst :: (List.range n).map (fun i => cols.map (fun c => c.2.getD i ""))

section
variable {F κ τ : Type} [Add F] [Sub F] [Mul F] [Div F] [Neg F] [OfScientific F] [LT F] [DecidableLT F]
  [MathFn F]

/-- The column `Year`; integers are not formatted: ciceroscm.py:357, concentrations_emissions_handler.py:989, 1001, 1007. -/
def yearCol (years : List Int) : String × List String := ("Year", years.map toString)

/-- A column of numbers: ciceroscm.py:390, concentrations_emissions_handler.py:938. -/
def numCol (fmt : F → String) (c : String × List F) : String × List String := (c.1, c.2.map fmt)

/-- A column of the carbon cycle table; NaN is an empty field: concentrations_emissions_handler.py:931-939. -/
def nanCol (fmt : F → String) (n : Nat) (c : Column F) : String × List String :=
  (c.1, match c.2 with
    | some vs => vs.map fmt
    | none => List.replicate n "")

/-- `cols[-1:] + cols[:-1]`: the last column comes first. concentrations_emissions_handler.py:994-995. -/
def rotate {α : Type} (xs : List α) : List α :=
  match xs.getLast? with
  | some x => x :: xs.dropLast
  | none => []

/-- The order of the columns of the forcing table: the run's components, `Year`, the components computed ahead; then the
last one is put first. concentrations_emissions_handler.py:988-996. -/
def forcingCols (fmt : F → String) (h : Handler F κ) (f : Reader.Df F) : List (String × List String) :=
  rotate ((f.cols.take h.forcKeys.length).map (numCol fmt) ++ [yearCol f.years] ++
    (f.cols.drop h.forcKeys.length).map (numCol fmt))

/-- The columns of the emission and the concentration table, `Year` first: concentrations_emissions_handler.py:1001-1006,
1013-1018. -/
def yearFirst (fmt : F → String) (f : Reader.Df F) : List (String × List String) :=
  yearCol f.years :: f.cols.map (numCol fmt)

/-- The files written and how it ended: the state after the last write, or the exception. -/
abbrev Written (α : Type) := List (String × Grid) × Except PyErr α

/-- `write_output_to_files(cfg, feedback_dict_series)`, concentrations_emissions_handler.py:890-964: all tables are made
before the first file is written. The carbon file is written twice, without a `Year` column. -/
def handlerFiles (fmt : F → String) (cwd : String) (c : OutCfg) (oops : OutputOps F κ) (tops : ThermalOps F τ)
    (d : Driver F κ) : Written (Driver F κ) :=
  match d.source with
  | .forcing _ => ([], .ok d)                                   -- ciceroscm.py:322
  | .handler h =>
    let tables : Except PyErr (List (String × Grid) × Driver F κ) := do
      let t ← carbonTable oops tops d c.carbon
      let y0 ← h.y0
      let forc ← frameOver h.years (reportForcing h y0)
      let emis ← reportEmis h
      let emis ← frameOver h.years emis
      let conc ← frameOver h.years (reportConc h)
      let n := h.years.length
      let three := [(c.path cwd "em", toCsv n (yearFirst fmt emis)), (c.path cwd "conc", toCsv n (yearFirst fmt conc)),
        (c.path cwd "forc", toCsv n (forcingCols fmt h forc))]
      match t.1 with
      | some k =>
        let carbon := (c.path cwd "carbon", toCsv n (k.map (nanCol fmt n)))
        return (three ++ [carbon, carbon], t.2)
      | none => return (three, t.2)
    match tables with
    | .ok r => (r.1, .ok r.2)
    | .error e => ([], .error e)

/-- The columns of the four files every run writes: ciceroscm.py:357-384, 407-414. -/
def dataColumns : List (String × List String) :=
  [("ohc", ["OHC700", "OHCTOT"]), ("rib", ["RIB_glob", "RIB_N", "RIB_S"]),
   ("temp", ["dT_glob", "dT_NH", "dT_SH", "dT_glob_air", "dT_NH_air", "dT_SH_air", "dT_glob_sea", "dT_NH_sea", "dT_SHsea"]),
   ("sunvolc", ["Solar_forcing", "Volcanic_forcing_NH", "Volcanic_forcing_SH"])]

/-- One data frame over the run years; `KeyError` for a missing series: ciceroscm.py:357-384, 407-414, 422-424. -/
def dataGrid (fmt : F → String) (d : Driver F κ) (names : List String) : Except PyErr Grid := do
  let years := pyRange d.nystart (d.nyend + 1)
  let cols ← names.mapM (fun n => do
    let a ← d.results.getE n
    return numCol fmt (n, a))
  return toCsv years.length (yearCol years :: cols)

/-- Write the tables with the given names one after the other, stopping at the first that cannot be made. -/
def writeGrids (fmt : F → String) (cwd : String) (c : OutCfg) (d : Driver F κ) :
    List (String × List String) → Written Unit
  | [] => ([], .ok ())
  | s :: rest =>
    match dataGrid fmt d s.2 with
    | .error e => ([], .error e)
    | .ok g =>
      let w := writeGrids fmt cwd c d rest
      ((c.path cwd s.1, g) :: w.1, w.2)

/-- `write_data_to_file(pamset)`, ciceroscm.py:334-430: the first three tables are made before the first file is
written. In a forcing run the total forcing is written as well. -/
def dataFiles (fmt : F → String) (cwd : String) (c : OutCfg) (d : Driver F κ) : Written Unit :=
  match (dataColumns.take 3).mapM (fun s => dataGrid fmt d s.2) with
  | .error e => ([], .error e)
  | .ok _ => writeGrids fmt cwd c d
      (dataColumns ++ if d.source.isForcing then [("forc", ["Total_forcing"])] else [])

/-- The end of `_run` without `results_as_dict`, ciceroscm.py:321-332: the handler's files, then the driver's. -/
def runFiles (fmt : F → String) (cwd : String) (c : OutCfg) (oops : OutputOps F κ) (tops : ThermalOps F τ)
    (d : Driver F κ) : Written (Driver F κ) :=
  let w := handlerFiles fmt cwd c oops tops d
  match w.2 with
  | .error e => (w.1, .error e)
  | .ok d' =>
    let v := dataFiles fmt cwd c d'
    (w.1 ++ v.1, v.2.map (fun _ => d'))

end

/-- The files on disk after some writes: `to_csv` replaces a file of the same name (ciceroscm.py:386-391). -/
def onDisk (fs : Dict Grid) (writes : List (String × Grid)) : Dict Grid :=
  writes.foldl (fun fs w => fs.set w.1 w.2) fs

end Verif.Model.Files
