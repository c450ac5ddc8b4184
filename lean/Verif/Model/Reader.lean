import Verif.Py.Dict

/-!
# Reformatted results: `formattingtools/reformat_cscm_results.py`, `formattingtools/reformat_inputdata_to_cscm_format.py`

Line numbers refer to `reformat_cscm_results.py` unless another file is named.
-/

namespace Verif.Model.Reader
open Verif.Py

/-! ## Strings -/

/-- `pat in s`. -/
def isSub (pat : List Char) : List Char → Bool
  | [] => pat.isEmpty
  | c :: cs => pat.isPrefixOf (c :: cs) || isSub pat cs

/-- `pat in s` for strings. -/
def inStr (pat s : String) : Bool := isSub pat.toList s.toList

/-- `s.startswith(pat)`. -/
def startsWith (s pat : String) : Bool := pat.toList.isPrefixOf s.toList

/-- `s.endswith(pat)`. -/
def endsWith (s pat : String) : Bool := pat.toList.isSuffixOf s.toList

/-- `s.replace(pat, rep)` on character lists, `pat` not empty; the first argument counts the characters of an
occurrence still to be skipped. -/
def replaceGo (pat rep : List Char) : Nat → List Char → List Char
  | _, [] => []
  | k + 1, _ :: cs => replaceGo pat rep k cs
  | 0, c :: cs =>
    if pat.isPrefixOf (c :: cs) then rep ++ replaceGo pat rep (pat.length - 1) cs
    else c :: replaceGo pat rep 0 cs

/-- `s.replace(pat, rep)`. -/
def replace (s pat rep : String) : String := String.ofList (replaceGo pat.toList rep.toList 0 s.toList)

/-! ## The dictionary of output variables -/

/-- lines 11-46 `openscm_to_cscm_dict`. -/
def baseDict : Dict String :=
  [("Surface Air Temperature Change", "dT_glob_air"),
   ("Surface Air Ocean Blended Temperature Change", "dT_glob"),
   ("Surface Air Ocean Temperature Change", "dT_glob_sea"),
   ("Effective Radiative Forcing", "Total_forcing+sunvolc"),
   ("Effective Radiative Forcing|Anthropogenic", "Total_forcing"),
   ("Effective Radiative Forcing|Anthropogenic|Aerosol", "Aerosols"),
   ("Effective Radiative Forcing|Anthropogenic|Aerosol|Aerosol-radiation Interactions", "Aerosols|Direct Effect"),
   ("Effective Radiative Forcing|Anthropogenic|Aerosol|Aerosol-radiation Interactions|BC", "BC"),
   ("Effective Radiative Forcing|Anthropogenic|Aerosol|Aerosol-radiation Interactions|OC", "OC"),
   ("Effective Radiative Forcing|Anthropogenic|Aerosol|Aerosol-radiation Interactions|Sulfate", "SO4_DIR"),
   ("Effective Radiative Forcing|Anthropogenic|Aerosol|Aerosol-cloud Interactions", "SO4_IND"),
   ("Effective Radiative Forcing|Greenhouse Gases", "GHG"),
   ("Effective Radiative Forcing|Anthropogenic|F-Gases", "Fgas"),
   ("Effective Radiative Forcing|Anthropogenic|CO2", "CO2"),
   ("Effective Radiative Forcing|Anthropogenic|CH4", "CH4"),
   ("Effective Radiative Forcing|Anthropogenic|N2O", "N2O"),
   ("Effective Radiative Forcing|Anthropogenic|Other|Stratospheric H2O", "STRAT_H2O"),
   ("Effective Radiative Forcing|Anthropogenic|Ozone|Stratospheric Contribution", "STRAT_O3"),
   ("Effective Radiative Forcing|Anthropogenic|Ozone|Tropospheric Contribution", "TROP_O3"),
   ("Emissions|CO2", "CO2"),
   ("Emissions|CH4", "CH4"),
   ("Emissions|N2O", "N2O"),
   ("Heat Uptake", "RIB_glob"),
   ("Heat Content|Ocean", "OHCTOT"),
   ("Heat Content|Ocean|0-700m", "OHC700"),
   ("Anomalous Radiation", "anomalous_radiation"),
   ("Atmospheric Concentrations|CO2", "CO2"),
   ("Atmospheric Concentrations|CH4", "CH4"),
   ("Atmospheric Concentrations|N2O", "N2O"),
   ("Atmospheric Concentrations|Ozone|Tropospheric'", "TROP_O3")]

/-- line 47. -/
def forcSums : List String := ["Aerosols", "Aerosols|Direct Effect"]

/-- lines 48-72. -/
def fgasList : List String :=
  ["HFC125", "HFC134a", "HFC143a", "HFC152a", "HFC227ea", "HFC236fa", "HFC23", "HFC245fa", "HFC32", "HFC365mfc",
   "HFC4310mee", "NF3", "C2F6", "C3F8", "C4F10", "C5F12", "C6F14", "C7F16", "C8F18", "cC4F8", "CF4", "SF6", "SO2F2"]

/-- lines 73-93. -/
def montrealList : List String :=
  ["CFC-11", "CFC-12", "CFC-113", "CFC-114", "CFC-115", "CH3Br", "CCl4", "CH3CCl3", "H-1202", "H-1211", "H-1301",
   "H-2402", "HCFC-123", "HCFC-142b", "HCFC-141b", "HCFC-22", "CHCl3", "CH3Cl", "CH2Cl2"]

/-- lines 96-114 `fgas_transform`. -/
def fgasTransform (g : String) : String :=
  if startsWith g "HFC" then "HFC|" ++ g
  else if startsWith g "c" || startsWith g "C" then "PFC|" ++ g
  else g

/-- lines 117-137 `montreal_transform`. -/
def montrealTransform (g : String) : String :=
  if startsWith g "CFC" then "CFC|" ++ replace g "-" ""
  else if startsWith g "H-" then replace g "H-" "Halon"
  else if startsWith g "HCFC-" then replace g "HCFC-" "HCFC"
  else g

/-- lines 140-146. -/
def addFgas (d : Dict String) (g : String) : Dict String :=
  (d.set ("Effective Radiative Forcing|Anthropogenic|F-Gases|" ++ fgasTransform g) g).set
    ("Atmospheric Concentrations|F-Gases|" ++ fgasTransform g) g

/-- lines 148-155. -/
def addMontreal (d : Dict String) (g : String) : Dict String :=
  (d.set ("Effective Radiative Forcing|Anthropogenic|Montreal Gases|" ++ montrealTransform g) g).set
    ("Atmospheric Concentrations|Montreal Gases|" ++ montrealTransform g) g

/-- `self.variable_dict`, lines 140-155 and 275-278. -/
def variableDict : Dict String :=
  Dict.set (montrealList.foldl addMontreal (fgasList.foldl addFgas baseDict))
    "Effective Radiative Forcing|Aerosols|Direct Effect|SOx" "SO4_DIR"

/-- line 157. -/
def ghgNotFgas : List String := ["CO2", "CH4", "N2O", "TROP_O3", "STRAT_O3", "STRAT_H2O"]

/-- lines 158-165. -/
def carbonOutputs : Dict String :=
  [("Carbon Flux|Land", "Biosphere carbon flux"), ("Carbon Flux|Ocean", "Ocean carbon flux"),
   ("Airborne fraction CO2", "Airborne fraction CO2"), ("Carbon Pool|Land", "Biosphere carbon pool"),
   ("Carbon Pool|Ocean", "Ocean carbon pool"), ("Net Flux to Atmosphere|CO2", "Net flux to atmosphere")]

/-- lines 279-285. -/
def tempList : List String := ["dT_glob", "dT_glob_air", "dT_glob_sea", "RIB_glob", "anomalous_radiation"]

/-- line 286. -/
def ohcList : List String := ["OHCTOT", "OHC700"]

/-! ## Tables -/

/-- A result table: the column `Year` and the other columns. -/
structure Df (F : Type) where
  years : List Int
  cols : Dict (List F)

/-- `self.cscm.results`: the tables and the plain series. -/
structure Results (F : Type) where
  tables : Dict (Df F)
  series : Dict (List F)

/-- The parts of `COMMONSFILEWRITER` the reader uses. -/
structure Units where
  components : List String
  units : List String
  concunits : List String

/-- What `get_variable_timeseries` returns. -/
structure Answer (F : Type) where
  years : List Int
  series : List F
  unit : String

section
variable {F : Type} [Add F] [Sub F] [Mul F] [Div F] [Neg F] [OfScientific F]

/-- Sum of two arrays; arrays of different lengths raise `ValueError`. -/
def addArr (xs ys : List F) : Except PyErr (List F) :=
  if xs.length = ys.length then .ok (List.zipWith (· + ·) xs ys) else .error .valueError

/-- lines 184-193: a column is added if it is there. -/
def addPresent (t : Df F) (acc : List F) (c : String) : Except PyErr (List F) :=
  match t.cols.get? c with
  | some xs => addArr acc xs
  | none => .ok acc

/-- lines 178-180: one turn of the loop over the dictionary. -/
def addSummand (t : Df F) (what : String) (acc : List F) (kv : String × String) : Except PyErr (List F) :=
  if inStr what kv.1 && decide (kv.2 ∉ forcSums) then do addArr acc (← t.cols.getE kv.2) else .ok acc

/-- lines 168-201 `get_data_from_forc_common`. -/
def forcCommon (t : Df F) (what : String) (v_dict : Dict String) (volc sun : List F) : Except PyErr (List F) :=
  let zeros : List F := List.replicate t.years.length 0.0
  if what ∈ forcSums then v_dict.foldlM (addSummand t what) zeros
  else if what = "Fgas" then fgasList.foldlM (addPresent t) zeros
  else if what = "GHG" then do
    let s ← fgasList.foldlM (addPresent t) zeros
    let s ← montrealList.foldlM (addPresent t) s
    ghgNotFgas.foldlM (addPresent t) s
  else if what = "Total_forcing+sunvolc" then do
    let s ← t.cols.getE "Total_forcing"
    let s ← addArr s volc
    addArr s sun
  else t.cols.getE what

/-- lines 357-365 `get_volc_forcing`: the index assignment needs one value per year. -/
def volcForcing (r : Results F) (indices : List Int) : Except PyErr (List F) := do
  let n ← r.series.getE "Volcanic_forcing_NH"
  let s ← r.series.getE "Volcanic_forcing_SH"
  let v ← addArr n s
  if v.length = indices.length then return v.map (fun x => x / 2.0) else .error .valueError

/-- lines 367-373 `get_sun_forcing`. -/
def sunForcing (r : Results F) (indices : List Int) : Except PyErr (List F) := do
  let s ← r.series.getE "Solar_forcing"
  if s.length = indices.length then return s else .error .valueError

/-- lines 375-389 `get_data_from_forc`. -/
def fromForc (r : Results F) (indices : List Int) (what : String) : Except PyErr (List Int × List F) := do
  let t ← r.tables.getE "forcing"
  if what = "Total_forcing+sunvolc" then do
    let volc ← volcForcing r indices
    let sun ← sunForcing r indices
    return (t.years, ← forcCommon t what variableDict volc sun)
  else return (t.years, ← forcCommon t what variableDict [] [])

/-- lines 204-211 `get_data_from_conc`. -/
def fromConc (r : Results F) (what : String) : Except PyErr (List Int × List F) := do
  let t ← r.tables.getE "concentrations"
  return (t.years, ← t.cols.getE what)

/-- lines 214-229 `get_data_from_em`. -/
def fromEm (r : Results F) (what : String) : Except PyErr (List Int × List F) := do
  let t ← r.tables.getE "emissions"
  let c ← r.tables.getE "carbon cycle"
  match c.cols.get? "Emissions" with
  | some em => if what = "CO2" then return (t.years, em) else return (t.years, ← t.cols.getE what)
  | none => return (t.years, ← t.cols.getE what)

/-- `np.cumsum`. -/
def cumsum (acc : F) : List F → List F
  | [] => []
  | x :: xs => (acc + x) :: cumsum (acc + x) xs

/-- lines 250-266 `get_carbon_cycle_outputs`. -/
def carbonOutput (t : Df F) (what : String) : Except PyErr (List F × String) :=
  if endsWith what "flux" then do return (← t.cols.getE what, "Pg C / yr")
  else if endsWith what "pool" then do
    return (cumsum 0.0 (← t.cols.getE (replace what "pool" "flux")), "Pg C")
  else if what = "Net flux to atmosphere" then do
    let b ← t.cols.getE "Biosphere carbon flux"
    let o ← t.cols.getE "Ocean carbon flux"
    return (List.zipWith (fun b o => -b - o) b o, "Pg C / yr")
  else do return (← t.cols.getE what, "Unitless")

/-- `units[components.index(c)]`: an unknown component raises `ValueError`. -/
def unitOf (components units : List String) (c : String) : Except PyErr String :=
  if c ∈ components then
    match units[components.idxOf c]? with
    | some u => .ok u
    | none => .error .indexError
  else .error .valueError

/-- constants.py: `OCEAN_AREA`, `SEC_DAY`, `DAY_YEAR`. -/
def OCEAN_AREA : F := 3.61e14

/-- lines 341-342. -/
def heatUptake (x : F) : F := x * OCEAN_AREA * 86400.0 * 365.0 / 1e21

/-- The answer for a variable that is not there, lines 296-300. -/
def noAnswer : Answer F := ⟨[], [], "NoUnit"⟩

/-- lines 289-355 `get_variable_timeseries`; `indices` is `np.arange(nystart, nyend + 1)`. -/
def getVariable (r : Results F) (indices : List Int) (what : String) (w : Units) : Except PyErr (Answer F) :=
  if inStr "Concentration" what then
    match variableDict.get? what with
    | none => .ok noAnswer
    | some c => do
      let d ← fromConc r c
      return ⟨d.1, d.2, ← unitOf w.components w.concunits c⟩
  else if inStr "Emissions" what then
    match variableDict.get? what with
    | none => .ok noAnswer
    | some c => do
      let d ← fromEm r c
      return ⟨d.1, d.2, ← unitOf w.components w.units c⟩
  else if inStr "Forcing" what then
    match variableDict.get? what with
    | none => .ok noAnswer
    | some c => do
      let d ← fromForc r indices c
      return ⟨d.1, d.2, "W/m^2"⟩
  else
    match carbonOutputs.get? what with
    | some c =>
      match r.tables.get? "carbon cycle" with
      | none => .ok noAnswer
      | some t => do
        let d ← carbonOutput t c
        return ⟨indices, d.1, d.2⟩
    | none =>
      match variableDict.get? what with
      | none => .ok noAnswer
      | some c =>
        if c ∈ tempList then do
          let s ← r.series.getE c
          if c = "RIB_glob" then return ⟨indices, s.map heatUptake, "ZJ / yr"⟩
          else return ⟨indices, s, "K"⟩
        else if c ∈ ohcList then do
          let s ← r.series.getE c
          return ⟨indices, s.map (fun x => x * 10.0), "ZJ"⟩
        else .ok noAnswer

end

/-! ## Units: `reformat_inputdata_to_cscm_format.py` -/

/-- A row of the gas parameter table: component, emission unit, concentration unit. -/
structure GasUnits where
  component : String
  em : String
  conc : String

/-- reformat_inputdata_to_cscm_format.py:87-103: the emission unit of a row of a gas file. -/
def fileUnit (component unit : String) : String :=
  (if component = "N2O" ∧ unit = "Tg_N" then "TgN2ON"
   else if inStr "_" unit then replace unit "_" ""
   else unit ++ replace (replace component "-" "") "BMB_AEROS_" "") ++ " / yr"

/-- `list.insert(1, x)`. -/
def insert1 {α : Type} (l : List α) (x : α) : List α := l.take 1 ++ x :: l.drop 1

/-- reformat_inputdata_to_cscm_format.py:77-111: units from a gas file. -/
def unitsFromFile (rows : List GasUnits) : Units :=
  let rows := rows.filter (fun r => r.em ≠ "X")
  { components := insert1 (rows.map (·.component)) "CO2_lu"
    units := insert1 (rows.map (fun r => fileUnit r.component r.em)) "PgC / yr"
    concunits := insert1 (rows.map (·.conc)) "ppm" }

/-- reformat_inputdata_to_cscm_format.py:119-127: a whole-cell replacement, then the two biomass burning rows. -/
def frameUnit (r : GasUnits) : String :=
  let u := if r.em = "Tg_N" then "TgN2ON" else r.em
  if r.component = "BMB_AEROS_OC" then replace u "Tg" "TgOC"
  else if r.component = "BMB_AEROS_BC" then replace u "Tg" "TgBC"
  else u

/-- The concentration unit of a row of a data frame, lines 119-120: `Tg_N` anywhere in the table is replaced; the
replacement of `_` only replaces cells that are exactly `_`. -/
def frameConcUnit (r : GasUnits) : String :=
  let u := if r.conc = "Tg_N" then "TgN2ON" else r.conc
  if u = "_" then "" else u

/-- reformat_inputdata_to_cscm_format.py:113-135: units from a gas table in memory; both biomass burning rows must
be there. -/
def unitsFromFrame (rows : List GasUnits) : Except PyErr Units :=
  if rows.any (fun r => r.component = "BMB_AEROS_OC") && rows.any (fun r => r.component = "BMB_AEROS_BC") then
    .ok { components := insert1 (rows.map (·.component)) "CO2_lu"
          units := insert1 (rows.map (fun r => frameUnit r ++ " / yr")) "PgC / yr"
          concunits := insert1 (rows.map frameConcUnit) "ppm" }
  else .error .keyError

end Verif.Model.Reader
