import Verif.Model.InputHandler
import Verif.Model.CarbonInst
import Verif.Model.CarbonOut
import Verif.Model.ThermalInst
import Std.Data.HashMap

/-!
# Running the model with floating-point numbers

A program that repeats runs from the package's integration tests with the model at `F := Float`, from the same input
files, and compares the results with the expected output stored in the repository. Nothing is proved here and no
theorem depends on this file; it checks the transcription. `tools/floatrun.sh` compiles and runs it.

The text parsing below is part of this program, not of the model. After every year the state is tabulated: functions
are replaced by table lookups with the same values, so that the run takes a reasonable time.
-/

namespace Verif.Exec.FloatRun
open Verif.Py Verif.Model Verif.Model.Handler Verif.Model.Driver Verif.Model.InputHandler

/-- The white-space separated words of a line. -/
def words (s : String) : List String :=
  let r := s.toList.foldl (fun (acc : List (List Char) × List Char) c =>
    if c.isWhitespace then (if acc.2.isEmpty then acc else (acc.2.reverse :: acc.1, [])) else (acc.1, c :: acc.2)) ([], [])
  ((if r.2.isEmpty then r.1 else r.2.reverse :: r.1).reverse).map String.ofList

def digits (l : List Char) : Nat := l.foldl (fun n c => 10 * n + (c.toNat - '0'.toNat)) 0

/-- A decimal number with optional sign, fraction and exponent. -/
def parseFloat (s : String) : Option Float :=
  let l := s.toList
  let (neg, l) := match l with | '-' :: l => (true, l) | '+' :: l => (false, l) | l => (false, l)
  let mant := l.takeWhile (fun c => c != 'e' && c != 'E')
  let ex := (l.dropWhile (fun c => c != 'e' && c != 'E')).drop 1
  let (eneg, ex) := match ex with | '-' :: l => (true, l) | '+' :: l => (false, l) | l => (false, l)
  let ip := mant.takeWhile (· != '.')
  let fp := (mant.dropWhile (· != '.')).drop 1
  if (ip ++ fp ++ ex).all Char.isDigit && !(ip ++ fp).isEmpty then
    let e : Int := (if eneg then -(digits ex : Int) else digits ex) - fp.length
    let v := if e < 0 then Float.ofScientific (digits (ip ++ fp)) true e.natAbs
      else Float.ofScientific (digits (ip ++ fp)) false e.natAbs
    some (if neg then -v else v)
  else none

def num (s : String) : Float := (parseFloat s).getD (0.0 / 0.0)

def lines (s : String) : List (List String) := (s.splitOn "\n").map words |>.filter (fun l => !l.isEmpty)

/-- Column names with pandas' suffix for a repeated name. -/
def dedup (l : List String) : List String :=
  (l.foldl (fun (acc : List String) c => if c ∈ acc then acc ++ [c ++ ".1"] else acc ++ [c]) [])

def frameOf (cols : List String) (rows : List (List String)) : Frame Float :=
  let m : Std.HashMap (String × Int) Float := rows.foldl (fun m r =>
    match r with
    | y :: vs => (cols.zip vs).foldl (fun m cv => m.insert (cv.1, (num y).toInt64.toInt) (num cv.2)) m
    | [] => m) {}
  { cols := cols, idx := rows.filterMap (fun r => r.head?.map (fun y => (num y).toInt64.toInt)),
    cell := fun c y => m.getD (c, y) (0.0 / 0.0) }

def tableOf (ls : List (List String)) (skip : Nat) : Frame Float :=
  match ls with
  | h :: rest => frameOf (dedup (h.drop 1)) (rest.drop skip)
  | [] => frameOf [] []

def gasOf (ls : List (List String)) : Dict (Gas Float × String) :=
  match ls with
  | h :: rest => rest.map (fun r =>
      let get := fun c => ((h.zip r).lookup c).getD ""
      (get "GAS", (⟨get "CONC_UNIT", num (get "ALPHA"), num (get "BETA"), num (get "TAU1(YEARS)"), num (get "TAU2"),
        num (get "TAU3"), num (get "NATURAL_EMISSIONS"), num (get "SARF_TO_ERF")⟩, get "EM_UNIT")))
  | [] => []

/-- The file system: the named files, read and split into words. -/
def filesOf (defaultDir : String) (content : List (String × List (List String))) : Files Float :=
  let get := fun p => match content.lookup p with
    | some x => Except.ok x
    | none => Except.error PyErr.fileNotFound
  { present := fun p => (content.lookup p).isSome
    gaspam := fun p => (get p).map gasOf
    column := fun p => (get p).map (fun ls => ls.map (fun r => num (r.headD "")))
    table := fun p => (get p).map (fun ls => tableOf ls 3)
    years := fun p => (get p).map (fun ls => ls.map (fun r => r.map num))
    forcFirst := fun p => (get p).map (fun ls => ((ls.headD []).headD "").toLower.startsWith "year")
    forcTable := fun p => (get p).map (fun ls => tableOf (ls.map (fun r => (" ".intercalate r).splitOn ",")) 0)
    pert := fun p => (get p).map (fun ls => (ls.drop 1).map (fun r =>
      let w := (" ".intercalate r).splitOn ","
      ⟨w.getD 0 "", (num (w.getD 3 "")).toInt64.toInt, num (w.getD 4 "")⟩))
    header := fun p => (get p).map (fun ls => match ls with
      | a :: b :: _ => (dedup (a.drop 1)).zip (b.drop 1)
      | _ => [])
    defaultDir := defaultDir, cwd := ".", nan := 0.0 / 0.0 }

/-- Thomas' algorithm, in place of LAPACK's banded solver: row `i` is
`a (i-1) x (i-1) + b i x i + c (i+1) x (i+1) = d i`. -/
def thomas : UDM.Solver Float := fun n a b c d =>
  let fwd := (List.range n).foldl (fun (acc : Array (Float × Float)) i =>
    let cc := if i + 1 < n then c (i + 1) else 0.0
    if i = 0 then acc.push (cc / b 0, d 0 / b 0)
    else
      let (cp, dp) := acc[i - 1]!
      let m := b i - a (i - 1) * cp
      acc.push (cc / m, (d i - a (i - 1) * dp) / m)) #[]
  let x := (List.range n).foldl (fun (acc : Array Float) k =>
    let i := n - 1 - k
    let (cp, dp) := fwd[i]!
    acc.set! i (if k = 0 then dp else dp - cp * acc[i + 1]!)) (Array.replicate n 0.0)
  .ok (fun i => x.getD i 0.0)

@[noinline] def values (n : Nat) (f : Nat → Float) : Array Float := Array.ofFn (n := n) (fun i => f i.val)

def look (a : Array Float) (f : Nat → Float) (i : Nat) : Float := if h : i < a.size then a[i] else f i

@[noinline] def tabFrame (t : Frame Float) : Frame Float :=
  let m : Std.HashMap (String × Int) Float := t.cols.foldl (fun m c =>
    t.idx.foldl (fun m y => m.insert (c, y) (t.cell c y)) m) {}
  { t with cell := fun c y => m.getD (c, y) (0.0 / 0.0) }

@[noinline] def tabIR (k : CarbonInst.IR Float) : CarbonInst.IR Float :=
  let n := (k.idtm * (k.years_tot + 1)).toNat + 1
  { k with hold := { k.hold with sCO2 := look (values n k.hold.sCO2) k.hold.sCO2, dfnpp := look (values n k.hold.dfnpp) k.hold.dfnpp } }

/-- The carbon cycle model with tabulation after every call. -/
def ops : CarbonOps Float (CarbonInst.IR Float) :=
  { CarbonInst.irOps with step := fun k yr em fb => do
      let r ← CarbonInst.irOps.step k yr em fb
      return (r.1, tabIR r.2) }

/-- Tabulate what does not change during a run. -/
@[noinline] def tabStatic (h : Handler Float (CarbonInst.IR Float)) : Handler Float (CarbonInst.IR Float) :=
  let n := (h.carbon.idtm * (h.carbon.years_tot + 1)).toNat + 1
  let cols := h.prec.erf.cols
  let m : Std.HashMap (String × Int) Float := cols.foldl (fun m c =>
    h.years.foldl (fun m y => match h.prec.erf.val c y with | some v => m.insert (c, y) v | none => m) m) {}
  let rows := h.prec.conc.map (fun r =>
    let t : Std.HashMap String Float := h.prec.gases.foldl (fun t g => t.insert g (r.2 g)) {}
    (r.1, fun g => t.getD g (0.0 / 0.0)))
  { h with
    emis := tabFrame h.emis, concIn := tabFrame h.concIn
    prec := { h.prec with erf := { h.prec.erf with val := fun c y => m.get? (c, y) }, conc := rows }
    carbon := { h.carbon with rs := look (values n h.carbon.rs) h.carbon.rs, rb := look (values n h.carbon.rb) h.carbon.rb } }

/-- Tabulate what a year has changed. -/
@[noinline] def tabYear (y0 yr : Int) (h : Handler Float (CarbonInst.IR Float)) : Handler Float (CarbonInst.IR Float) :=
  let m : Std.HashMap (String × Int) (Option Float) := h.concKeys.foldl (fun m c =>
    (pyRange y0 (yr + 1)).foldl (fun m y => m.insert (c, y) (h.conc c y)) m) {}
  let g : Std.HashMap (String × Nat) Float := h.forcKeys.foldl (fun m c =>
    (List.range h.years.length).foldl (fun m i => m.insert (c, i) (h.forc c i)) m) {}
  { h with conc := fun c y => m.getD (c, y) none, forc := fun c i => g.getD (c, i) (0.0 / 0.0), carbon := tabIR h.carbon }

@[noinline] def tabSource (f : Handler Float (CarbonInst.IR Float) → Handler Float (CarbonInst.IR Float)) :
    Source Float (CarbonInst.IR Float) → Source Float (CarbonInst.IR Float)
  | .forcing x => .forcing x
  | .handler h => .handler (f h)

@[noinline] def tabUDM (m : UDM.Model Float) : UDM.Model Float :=
  let n := m.p.lm + 1
  let k := fun (c : UDM.Coeffs Float) => (⟨look (values n c.a) c.a, look (values n c.b) c.b, look (values n c.c) c.c⟩ : UDM.Coeffs Float)
  { m with tn := look (values n m.tn) m.tn, ts := look (values n m.ts) m.ts, v := { m.v with north := k m.v.north, south := k m.v.south } }

/-- Compute a result now. -/
@[noinline] def now (what : String) (f : Unit → Except PyErr α) : IO α := do
  match f () with
  | .ok x => return x
  | .error e => throw (IO.userError s!"{what}: {repr e}")

def say (s : String) : IO Unit := do
  IO.println s
  (← IO.getStdout).flush

/-- `Driver.run`, with tabulation after every year. -/
def runTab {τ : Type} (tops : ThermalOps Float τ) (tabT : τ → τ) (d : Driver Float (CarbonInst.IR Float)) (p : RunPams Float) :
    IO (Driver Float (CarbonInst.IR Float) × τ) := do
  let s ← now "start of the run" (fun _ => startRun ops tops d p)
  let src ← now "" (fun _ => .ok (tabSource tabStatic s.source))
  let mut s := { s with source := src }
  for yr in pyRange d.nystart (d.nyend + 1) do
    let s1 ← now s!"year {yr}" (fun _ => yearStep ops tops d s yr)
    let src ← now "" (fun _ => .ok (tabSource (tabYear d.nystart yr) s1.source))
    let th ← now "" (fun _ => .ok (tabT s1.thermal))
    s := { s1 with source := src, thermal := th }
  return ({ d with source := s.source, results := s.results }, s.thermal)

def readAll (ps : List String) : IO (List (String × List (List String))) :=
  ps.mapM (fun (p : String) => do return (p, lines (← IO.FS.readFile p)))

/-- The largest relative difference between a column of the model and a column of an expected file, over the years for which
both exist; differences below 1e-9 absolute count as none, the files have six digits. -/
def worst (exp : Frame Float) (c : String) (ys : List Int) (f : Int → Option Float) : Float × Int × Nat :=
  ys.foldl (fun (acc : Float × Int × Nat) y =>
    match f y with
    | some v =>
      let e := exp.cell c y
      let dlt := Float.abs (v - e)
      let r := if dlt < 1e-9 then 0.0 else if dlt.isNaN then 1.0 / 0.0 else dlt / Float.abs e
      (if acc.1 < r then r else acc.1, if acc.1 < r then y else acc.2.1, acc.2.2 + 1)
    | none => acc) (0.0, 0, 0)

def report (name : String) (exp : Frame Float) (ys : List Int) (cols : List (String × (Int → Option Float))) : IO Unit := do
  let mut tot := 0.0
  let mut n := 0
  let mut cells := 0
  for (c, f) in cols do
    if c ∈ exp.cols then
      let (r, y, k) := worst exp c ys f
      n := n + 1
      cells := cells + k
      if 1e-4 < r then IO.println s!"   {name} {c}: relative difference {r} in {y}, model {f y}, expected {exp.cell c y}"
      if tot < r then tot := r
  let missing := exp.cols.filter (fun c => !(cols.map Prod.fst).contains c)
  IO.println s!"{name}: {n} columns, {cells} numbers, largest relative difference {tot}; columns not in the model: {missing}"

/-- Move the column `Year` to the front. -/
def yearFirst (ls : List (List String)) : Frame Float :=
  match ls with
  | h :: rest =>
    let i := h.idxOf "Year"
    let mv := fun (r : List String) => r.getD i "" :: r.eraseIdx i
    frameOf ((mv h).drop 1) (rest.map mv)
  | [] => frameOf [] []

def series (d : Driver Float (CarbonInst.IR Float)) : List (String × (Int → Option Float)) :=
  d.results.map (fun kv => (kv.1, fun y => kv.2[(y - d.nystart).toNat]?))

def F (x : Float) : PyVal Float := .flt x

/-- A run with gases; `files'` are the expected files to compare. tests/integration/test_scm_conc.py, test_scm_pertrun.py. -/
def emissionRun (data defaults : String) (gasFile : String) (udm : Option (Dict (PyVal Float))) (emiconc : Option (Dict (PyVal Float)))
    (expDir : String) (what : List (String × Nat)) (extra : Dict (CfgVal Float)) : IO Unit := do
  let nm := fun x => data ++ "/" ++ x
  let fs ← readAll ([gasFile, "ssp245_conc_RCMIP.txt", "ssp245_em_RCMIP.txt", "natemis_ch4.txt", "natemis_n2o.txt",
      "pertem_test.txt", "pertforc_test.txt"].map nm ++
    ["IPCC_LUCalbedo.txt", "solar_IPCC.txt", "meanVOLCmnd_ipcc_NH.txt"].map (fun x => defaults ++ "/" ++ x))
  let cfg : Dict (CfgVal Float) :=
    [("gaspam_file", .val (.str (nm gasFile))), ("nyend", .val (.int 2100)),
     ("concentrations_file", .val (.str (nm "ssp245_conc_RCMIP.txt"))),
     ("emissions_file", .val (.str (nm "ssp245_em_RCMIP.txt"))), ("nat_ch4_file", .val (.str (nm "natemis_ch4.txt"))),
     ("nat_n2o_file", .val (.str (nm "natemis_n2o.txt")))] ++ extra
  let tops := ThermalInst.udmOps thomas
  let d ← now "construction" (fun _ => build ops tops (filesOf defaults fs) cfg)
  let (d1, _) ← runTab tops tabUDM d ⟨udm, emiconc, none⟩
  match d1.source with
  | .forcing _ => say "not a run with gases"
  | .handler h =>
    let ys := pyRange d1.nystart (d1.nyend + 1)
    let em ← now "emissions" (fun _ => reportEmis h)
    for (f, n) in what do
      let exp := yearFirst (lines (← IO.FS.readFile (nm (expDir ++ "/output_" ++ f ++ ".txt"))))
      let cols := if f = "conc" then reportConc h else if f = "em" then em
        else if f = "forc" then reportForcing h d1.nystart else series d1
      report s!"{expDir}/output_{f}.txt, {n} years" exp (ys.take n) cols

/-- A forcing-driven run, tests/integration/test_scm_forc.py. -/
def forcingRun (data defaults : String) (forcFile : String) (asArray sunvolc : Bool) (udm : Dict (PyVal Float)) (expDir : String)
    (what : List String) : IO Unit := do
  let nm := fun x => data ++ "/" ++ x
  let fs ← readAll ([forcFile].map nm ++
    ["IPCC_LUCalbedo.txt", "solar_IPCC.txt", "meanVOLCmnd_ipcc_NH.txt"].map (fun x => defaults ++ "/" ++ x))
  let arr := (fs.lookup (nm forcFile)).getD [] |>.flatMap (fun r => r.map num)
  let cfg : Dict (CfgVal Float) :=
    [("nyend", .val (.int 2100)), (if asArray then ("forc_data", .data (.array arr)) else ("forc_file", .val (.str (nm forcFile))))] ++
    (if sunvolc then [("sunvolc", .val (.int 1))] else [])
  let tops := ThermalInst.udmOps thomas
  let d ← now "construction" (fun _ => build ops tops (filesOf defaults fs) cfg)
  -- the test passes the volcanic data as frames, shifted by constants
  let sh := fun (x : List (List Float)) c => x.map (fun r => r.map (· + c))
  let d := if sunvolc then { d with volcN := sh d.volcN 0.371457071, volcS := sh d.volcS 0.353195076 } else d
  let (d1, _) ← runTab tops tabUDM d ⟨some udm, none, none⟩
  let ys := pyRange d1.nystart (d1.nyend + 1)
  for f in what do
    let exp := yearFirst (lines (← IO.FS.readFile (nm (expDir ++ "/output_" ++ f ++ ".txt"))))
    report s!"{expDir}/output_{f}.txt" exp ys (series d1)

def udmForc : Dict (PyVal Float) :=
  [("rlamdo", F 16.0), ("akapa", F 0.634), ("cpi", F 0.4), ("W", F 4.0), ("beto", F 3.5), ("lambda", F 0.540), ("mixed", F 60.0)]

end Verif.Exec.FloatRun

open Verif.Exec.FloatRun in
/-- Arguments: `tests/test-data` and `src/ciceroscm/default_data`. -/
def main (args : List String) : IO Unit := do
  match args with
  | [data, defaults] =>
    let three := ["temp", "ohc", "sunvolc"]
    say "== one year of forcing (test_ciceroscm_run)"
    forcingRun data defaults "test_forcing.txt" true false (udmForc ++ [("ldtime", .int 12)]) "1_year_blipp" three
    say "== the same, split into hemispheres"
    forcingRun data defaults "test_forcing_hemisplit.txt" false false (("threstemp", .int 0) :: udmForc) "1_year_blipp" three
    say "== 1pct CO2 without sun and volcanoes"
    forcingRun data defaults "CO2_1pros.txt" false false udmForc "1pct_CO2_no_sunvolc" three
    say "== 1pct CO2 with sun and volcanoes"
    forcingRun data defaults "CO2_1pros.txt" false true udmForc "1pct_CO2" three
    say "== 1pct CO2 with sun and volcanoes, no threshold for the upwelling"
    forcingRun data defaults "CO2_1pros.txt" false true (("threstemp", .int 0) :: udmForc) "nr_test_1pct_CO2" ["temp", "ohc"]
    say "== SSP2-4.5 emissions (test_ciceroscm_run_emi)"
    emissionRun data defaults "gases_vupdate_2022_AR6.txt"
      (some [("rlamdo", F 15.1), ("akapa", F 0.657), ("cpi", F 0.208), ("W", F 2.2), ("beto", F 6.9), ("lambda", F 0.606),
        ("mixed", F 107.0)])
      (some [("qbmb", F 0.0), ("qo3", F 0.5), ("qdirso2", F (-0.3701 / 57)), ("qindso2", F (-0.4163 / 57)), ("qbc", F (0.163 / 7)),
        ("qoc", F (-0.084 / 16)), ("qh2o_ch4", F 0.171)]) "ssp245_emis" [("conc", 351), ("em", 351), ("forc", 13), ("temp", 15)]
      [("nystart", .val (.int 1750)), ("emstart", .val (.int 1850))]
    say "== SSP2-4.5 concentrations (test_ciceroscm_run_conc)"
    emissionRun data defaults "gases_v1RCMIP.txt" (some udmForc)
      (some [("qh2o_ch4", F 0.171), ("qbmb", F 0.03), ("qo3", F 0.4), ("qdirso2", F (-0.457 / 57)), ("qindso2", F (-0.514 / 57)),
        ("qbc", F (0.200 / 7)), ("qoc", F (-0.103 / 16))]) "ssp245_conc" [("conc", 351), ("em", 351), ("forc", 351), ("ohc", 351)]
      [("conc_run", .val (.bool true)), ("sunvolc", .val (.int 1))]
    say "== forcing perturbations (test_ciceroscm_run_pert_forc)"
    emissionRun data defaults "gases_v1RCMIP.txt" none
      (some [("qh2o_ch4", F 0.171), ("qbmb", F 0.03), ("qo3", F 0.4), ("qdirso2", F (-0.0031)), ("qindso2", F (-0.02)),
        ("qbc", F 0.03), ("qoc", F (-0.004))]) "pert_tests" [("forc", 351)]
      [("perturb_forc_file", .val (.str (data ++ "/pertforc_test.txt")))]
    say "== emission perturbations (test_ciceroscm_run_pert_emis)"
    emissionRun data defaults "gases_v1RCMIP.txt" none none "pert_tests" [("em", 351)]
      [("perturb_em_file", .val (.str (data ++ "/pertem_test.txt")))]
  | _ => IO.println "usage: floatrun TEST_DATA DEFAULT_DATA"
