import Verif.Lemmas.Reader

/-!
# The dictionary of output variables, as character codes

The lists of numbers in this file are the character codes of the names in `Verif.Model.Reader`; `variable_code` says so.
-/

namespace Verif.Lemmas.ReaderCodes
open Verif.Py Verif.Model.Reader

/-- The codes of `"Effective Radiative Forcing|Anthropogenic|F-Gases|"`. -/
def cErfF : List Nat := [69, 102, 102, 101, 99, 116, 105, 118, 101, 32, 82, 97, 100, 105, 97, 116, 105, 118, 101,
   32, 70, 111, 114, 99, 105, 110, 103, 124, 65, 110, 116, 104, 114, 111, 112, 111, 103, 101, 110, 105, 99, 124,
   70, 45, 71, 97, 115, 101, 115, 124]
theorem cErfF_eq : code "Effective Radiative Forcing|Anthropogenic|F-Gases|" = cErfF := (code_ofList _).trans (by decide +kernel)

/-- The codes of `"Atmospheric Concentrations|F-Gases|"`. -/
def cConcF : List Nat := [65, 116, 109, 111, 115, 112, 104, 101, 114, 105, 99, 32, 67, 111, 110, 99, 101, 110, 116,
   114, 97, 116, 105, 111, 110, 115, 124, 70, 45, 71, 97, 115, 101, 115, 124]
theorem cConcF_eq : code "Atmospheric Concentrations|F-Gases|" = cConcF := (code_ofList _).trans (by decide +kernel)

/-- The codes of `"Effective Radiative Forcing|Anthropogenic|Montreal Gases|"`. -/
def cErfM : List Nat := [69, 102, 102, 101, 99, 116, 105, 118, 101, 32, 82, 97, 100, 105, 97, 116, 105, 118, 101,
   32, 70, 111, 114, 99, 105, 110, 103, 124, 65, 110, 116, 104, 114, 111, 112, 111, 103, 101, 110, 105, 99, 124,
   77, 111, 110, 116, 114, 101, 97, 108, 32, 71, 97, 115, 101, 115, 124]
theorem cErfM_eq : code "Effective Radiative Forcing|Anthropogenic|Montreal Gases|" = cErfM := (code_ofList _).trans (by decide +kernel)

/-- The codes of `"Atmospheric Concentrations|Montreal Gases|"`. -/
def cConcM : List Nat := [65, 116, 109, 111, 115, 112, 104, 101, 114, 105, 99, 32, 67, 111, 110, 99, 101, 110, 116,
   114, 97, 116, 105, 111, 110, 115, 124, 77, 111, 110, 116, 114, 101, 97, 108, 32, 71, 97, 115, 101, 115, 124]
theorem cConcM_eq : code "Atmospheric Concentrations|Montreal Gases|" = cConcM := (code_ofList _).trans (by decide +kernel)

/-- The codes of `"HFC"`. -/
def cHFC : List Nat := [72, 70, 67]
theorem cHFC_eq : code "HFC" = cHFC := (code_ofList _).trans (by decide +kernel)

/-- The codes of `"HFC|"`. -/
def cHFCb : List Nat := [72, 70, 67, 124]
theorem cHFCb_eq : code "HFC|" = cHFCb := (code_ofList _).trans (by decide +kernel)

/-- The codes of `"c"`. -/
def cc : List Nat := [99]
theorem cc_eq : code "c" = cc := (code_ofList _).trans (by decide +kernel)

/-- The codes of `"C"`. -/
def cC : List Nat := [67]
theorem cC_eq : code "C" = cC := (code_ofList _).trans (by decide +kernel)

/-- The codes of `"PFC|"`. -/
def cPFC : List Nat := [80, 70, 67, 124]
theorem cPFC_eq : code "PFC|" = cPFC := (code_ofList _).trans (by decide +kernel)

/-- The codes of `"CFC"`. -/
def cCFC : List Nat := [67, 70, 67]
theorem cCFC_eq : code "CFC" = cCFC := (code_ofList _).trans (by decide +kernel)

/-- The codes of `"CFC|"`. -/
def cCFCb : List Nat := [67, 70, 67, 124]
theorem cCFCb_eq : code "CFC|" = cCFCb := (code_ofList _).trans (by decide +kernel)

/-- The codes of `"-"`. -/
def cDash : List Nat := [45]
theorem cDash_eq : code "-" = cDash := (code_ofList _).trans (by decide +kernel)

/-- The codes of `""`. -/
def cEmpty : List Nat := []
theorem cEmpty_eq : code "" = cEmpty := (code_ofList _).trans (by decide +kernel)

/-- The codes of `"H-"`. -/
def cH : List Nat := [72, 45]
theorem cH_eq : code "H-" = cH := (code_ofList _).trans (by decide +kernel)

/-- The codes of `"Halon"`. -/
def cHalon : List Nat := [72, 97, 108, 111, 110]
theorem cHalon_eq : code "Halon" = cHalon := (code_ofList _).trans (by decide +kernel)

/-- The codes of `"HCFC-"`. -/
def cHCFC : List Nat := [72, 67, 70, 67, 45]
theorem cHCFC_eq : code "HCFC-" = cHCFC := (code_ofList _).trans (by decide +kernel)

/-- The codes of `"HCFC"`. -/
def cHCFC0 : List Nat := [72, 67, 70, 67]
theorem cHCFC0_eq : code "HCFC" = cHCFC0 := (code_ofList _).trans (by decide +kernel)

/-- The codes of `"Effective Radiative Forcing|Aerosols|Direct Effect|SOx"`. -/
def cSOx : List Nat := [69, 102, 102, 101, 99, 116, 105, 118, 101, 32, 82, 97, 100, 105, 97, 116, 105, 118, 101,
   32, 70, 111, 114, 99, 105, 110, 103, 124, 65, 101, 114, 111, 115, 111, 108, 115, 124, 68, 105, 114, 101, 99,
   116, 32, 69, 102, 102, 101, 99, 116, 124, 83, 79, 120]
theorem cSOx_eq : code "Effective Radiative Forcing|Aerosols|Direct Effect|SOx" = cSOx := (code_ofList _).trans (by decide +kernel)

/-- The codes of `"SO4_DIR"`. -/
def cSO4 : List Nat := [83, 79, 52, 95, 68, 73, 82]
theorem cSO4_eq : code "SO4_DIR" = cSO4 := (code_ofList _).trans (by decide +kernel)

/-- The codes of `baseDict`. -/
def baseN : List (List Nat × List Nat) :=
  [([83, 117, 114, 102, 97, 99, 101, 32, 65, 105, 114, 32, 84, 101, 109, 112, 101, 114, 97, 116, 117, 114, 101, 32,
     67, 104, 97, 110, 103, 101], [100, 84, 95, 103, 108, 111, 98, 95, 97, 105, 114]),
   ([83, 117, 114, 102, 97, 99, 101, 32, 65, 105, 114, 32, 79, 99, 101, 97, 110, 32, 66, 108, 101, 110, 100, 101, 100,
     32, 84, 101, 109, 112, 101, 114, 97, 116, 117, 114, 101, 32, 67, 104, 97, 110, 103, 101], [100, 84, 95, 103,
     108, 111, 98]),
   ([83, 117, 114, 102, 97, 99, 101, 32, 65, 105, 114, 32, 79, 99, 101, 97, 110, 32, 84, 101, 109, 112, 101, 114, 97,
     116, 117, 114, 101, 32, 67, 104, 97, 110, 103, 101], [100, 84, 95, 103, 108, 111, 98, 95, 115, 101, 97]),
   ([69, 102, 102, 101, 99, 116, 105, 118, 101, 32, 82, 97, 100, 105, 97, 116, 105, 118, 101, 32, 70, 111, 114, 99,
     105, 110, 103], [84, 111, 116, 97, 108, 95, 102, 111, 114, 99, 105, 110, 103, 43, 115, 117, 110, 118, 111, 108,
     99]),
   ([69, 102, 102, 101, 99, 116, 105, 118, 101, 32, 82, 97, 100, 105, 97, 116, 105, 118, 101, 32, 70, 111, 114, 99,
     105, 110, 103, 124, 65, 110, 116, 104, 114, 111, 112, 111, 103, 101, 110, 105, 99], [84, 111, 116, 97, 108, 95,
     102, 111, 114, 99, 105, 110, 103]),
   ([69, 102, 102, 101, 99, 116, 105, 118, 101, 32, 82, 97, 100, 105, 97, 116, 105, 118, 101, 32, 70, 111, 114, 99,
     105, 110, 103, 124, 65, 110, 116, 104, 114, 111, 112, 111, 103, 101, 110, 105, 99, 124, 65, 101, 114, 111, 115,
     111, 108], [65, 101, 114, 111, 115, 111, 108, 115]),
   ([69, 102, 102, 101, 99, 116, 105, 118, 101, 32, 82, 97, 100, 105, 97, 116, 105, 118, 101, 32, 70, 111, 114, 99,
     105, 110, 103, 124, 65, 110, 116, 104, 114, 111, 112, 111, 103, 101, 110, 105, 99, 124, 65, 101, 114, 111, 115,
     111, 108, 124, 65, 101, 114, 111, 115, 111, 108, 45, 114, 97, 100, 105, 97, 116, 105, 111, 110, 32, 73, 110,
     116, 101, 114, 97, 99, 116, 105, 111, 110, 115], [65, 101, 114, 111, 115, 111, 108, 115, 124, 68, 105, 114, 101,
     99, 116, 32, 69, 102, 102, 101, 99, 116]),
   ([69, 102, 102, 101, 99, 116, 105, 118, 101, 32, 82, 97, 100, 105, 97, 116, 105, 118, 101, 32, 70, 111, 114, 99,
     105, 110, 103, 124, 65, 110, 116, 104, 114, 111, 112, 111, 103, 101, 110, 105, 99, 124, 65, 101, 114, 111, 115,
     111, 108, 124, 65, 101, 114, 111, 115, 111, 108, 45, 114, 97, 100, 105, 97, 116, 105, 111, 110, 32, 73, 110,
     116, 101, 114, 97, 99, 116, 105, 111, 110, 115, 124, 66, 67], [66, 67]),
   ([69, 102, 102, 101, 99, 116, 105, 118, 101, 32, 82, 97, 100, 105, 97, 116, 105, 118, 101, 32, 70, 111, 114, 99,
     105, 110, 103, 124, 65, 110, 116, 104, 114, 111, 112, 111, 103, 101, 110, 105, 99, 124, 65, 101, 114, 111, 115,
     111, 108, 124, 65, 101, 114, 111, 115, 111, 108, 45, 114, 97, 100, 105, 97, 116, 105, 111, 110, 32, 73, 110,
     116, 101, 114, 97, 99, 116, 105, 111, 110, 115, 124, 79, 67], [79, 67]),
   ([69, 102, 102, 101, 99, 116, 105, 118, 101, 32, 82, 97, 100, 105, 97, 116, 105, 118, 101, 32, 70, 111, 114, 99,
     105, 110, 103, 124, 65, 110, 116, 104, 114, 111, 112, 111, 103, 101, 110, 105, 99, 124, 65, 101, 114, 111, 115,
     111, 108, 124, 65, 101, 114, 111, 115, 111, 108, 45, 114, 97, 100, 105, 97, 116, 105, 111, 110, 32, 73, 110,
     116, 101, 114, 97, 99, 116, 105, 111, 110, 115, 124, 83, 117, 108, 102, 97, 116, 101], [83, 79, 52, 95, 68, 73,
     82]),
   ([69, 102, 102, 101, 99, 116, 105, 118, 101, 32, 82, 97, 100, 105, 97, 116, 105, 118, 101, 32, 70, 111, 114, 99,
     105, 110, 103, 124, 65, 110, 116, 104, 114, 111, 112, 111, 103, 101, 110, 105, 99, 124, 65, 101, 114, 111, 115,
     111, 108, 124, 65, 101, 114, 111, 115, 111, 108, 45, 99, 108, 111, 117, 100, 32, 73, 110, 116, 101, 114, 97, 99,
     116, 105, 111, 110, 115], [83, 79, 52, 95, 73, 78, 68]),
   ([69, 102, 102, 101, 99, 116, 105, 118, 101, 32, 82, 97, 100, 105, 97, 116, 105, 118, 101, 32, 70, 111, 114, 99,
     105, 110, 103, 124, 71, 114, 101, 101, 110, 104, 111, 117, 115, 101, 32, 71, 97, 115, 101, 115], [71, 72, 71]),
   ([69, 102, 102, 101, 99, 116, 105, 118, 101, 32, 82, 97, 100, 105, 97, 116, 105, 118, 101, 32, 70, 111, 114, 99,
     105, 110, 103, 124, 65, 110, 116, 104, 114, 111, 112, 111, 103, 101, 110, 105, 99, 124, 70, 45, 71, 97, 115,
     101, 115], [70, 103, 97, 115]),
   ([69, 102, 102, 101, 99, 116, 105, 118, 101, 32, 82, 97, 100, 105, 97, 116, 105, 118, 101, 32, 70, 111, 114, 99,
     105, 110, 103, 124, 65, 110, 116, 104, 114, 111, 112, 111, 103, 101, 110, 105, 99, 124, 67, 79, 50], [67, 79,
     50]),
   ([69, 102, 102, 101, 99, 116, 105, 118, 101, 32, 82, 97, 100, 105, 97, 116, 105, 118, 101, 32, 70, 111, 114, 99,
     105, 110, 103, 124, 65, 110, 116, 104, 114, 111, 112, 111, 103, 101, 110, 105, 99, 124, 67, 72, 52], [67, 72,
     52]),
   ([69, 102, 102, 101, 99, 116, 105, 118, 101, 32, 82, 97, 100, 105, 97, 116, 105, 118, 101, 32, 70, 111, 114, 99,
     105, 110, 103, 124, 65, 110, 116, 104, 114, 111, 112, 111, 103, 101, 110, 105, 99, 124, 78, 50, 79], [78, 50,
     79]),
   ([69, 102, 102, 101, 99, 116, 105, 118, 101, 32, 82, 97, 100, 105, 97, 116, 105, 118, 101, 32, 70, 111, 114, 99,
     105, 110, 103, 124, 65, 110, 116, 104, 114, 111, 112, 111, 103, 101, 110, 105, 99, 124, 79, 116, 104, 101, 114,
     124, 83, 116, 114, 97, 116, 111, 115, 112, 104, 101, 114, 105, 99, 32, 72, 50, 79], [83, 84, 82, 65, 84, 95, 72,
     50, 79]),
   ([69, 102, 102, 101, 99, 116, 105, 118, 101, 32, 82, 97, 100, 105, 97, 116, 105, 118, 101, 32, 70, 111, 114, 99,
     105, 110, 103, 124, 65, 110, 116, 104, 114, 111, 112, 111, 103, 101, 110, 105, 99, 124, 79, 122, 111, 110, 101,
     124, 83, 116, 114, 97, 116, 111, 115, 112, 104, 101, 114, 105, 99, 32, 67, 111, 110, 116, 114, 105, 98, 117,
     116, 105, 111, 110], [83, 84, 82, 65, 84, 95, 79, 51]),
   ([69, 102, 102, 101, 99, 116, 105, 118, 101, 32, 82, 97, 100, 105, 97, 116, 105, 118, 101, 32, 70, 111, 114, 99,
     105, 110, 103, 124, 65, 110, 116, 104, 114, 111, 112, 111, 103, 101, 110, 105, 99, 124, 79, 122, 111, 110, 101,
     124, 84, 114, 111, 112, 111, 115, 112, 104, 101, 114, 105, 99, 32, 67, 111, 110, 116, 114, 105, 98, 117, 116,
     105, 111, 110], [84, 82, 79, 80, 95, 79, 51]),
   ([69, 109, 105, 115, 115, 105, 111, 110, 115, 124, 67, 79, 50], [67, 79, 50]),
   ([69, 109, 105, 115, 115, 105, 111, 110, 115, 124, 67, 72, 52], [67, 72, 52]),
   ([69, 109, 105, 115, 115, 105, 111, 110, 115, 124, 78, 50, 79], [78, 50, 79]),
   ([72, 101, 97, 116, 32, 85, 112, 116, 97, 107, 101], [82, 73, 66, 95, 103, 108, 111, 98]),
   ([72, 101, 97, 116, 32, 67, 111, 110, 116, 101, 110, 116, 124, 79, 99, 101, 97, 110], [79, 72, 67, 84, 79, 84]),
   ([72, 101, 97, 116, 32, 67, 111, 110, 116, 101, 110, 116, 124, 79, 99, 101, 97, 110, 124, 48, 45, 55, 48, 48, 109],
     [79, 72, 67, 55, 48, 48]),
   ([65, 110, 111, 109, 97, 108, 111, 117, 115, 32, 82, 97, 100, 105, 97, 116, 105, 111, 110], [97, 110, 111, 109, 97,
     108, 111, 117, 115, 95, 114, 97, 100, 105, 97, 116, 105, 111, 110]),
   ([65, 116, 109, 111, 115, 112, 104, 101, 114, 105, 99, 32, 67, 111, 110, 99, 101, 110, 116, 114, 97, 116, 105, 111,
     110, 115, 124, 67, 79, 50], [67, 79, 50]),
   ([65, 116, 109, 111, 115, 112, 104, 101, 114, 105, 99, 32, 67, 111, 110, 99, 101, 110, 116, 114, 97, 116, 105, 111,
     110, 115, 124, 67, 72, 52], [67, 72, 52]),
   ([65, 116, 109, 111, 115, 112, 104, 101, 114, 105, 99, 32, 67, 111, 110, 99, 101, 110, 116, 114, 97, 116, 105, 111,
     110, 115, 124, 78, 50, 79], [78, 50, 79]),
   ([65, 116, 109, 111, 115, 112, 104, 101, 114, 105, 99, 32, 67, 111, 110, 99, 101, 110, 116, 114, 97, 116, 105, 111,
     110, 115, 124, 79, 122, 111, 110, 101, 124, 84, 114, 111, 112, 111, 115, 112, 104, 101, 114, 105, 99, 39], [84,
     82, 79, 80, 95, 79, 51])]

/-- The codes of `fgasList`. -/
def fgasN : List (List Nat) :=
  [[72, 70, 67, 49, 50, 53],
   [72, 70, 67, 49, 51, 52, 97],
   [72, 70, 67, 49, 52, 51, 97],
   [72, 70, 67, 49, 53, 50, 97],
   [72, 70, 67, 50, 50, 55, 101, 97],
   [72, 70, 67, 50, 51, 54, 102, 97],
   [72, 70, 67, 50, 51],
   [72, 70, 67, 50, 52, 53, 102, 97],
   [72, 70, 67, 51, 50],
   [72, 70, 67, 51, 54, 53, 109, 102, 99],
   [72, 70, 67, 52, 51, 49, 48, 109, 101, 101],
   [78, 70, 51],
   [67, 50, 70, 54],
   [67, 51, 70, 56],
   [67, 52, 70, 49, 48],
   [67, 53, 70, 49, 50],
   [67, 54, 70, 49, 52],
   [67, 55, 70, 49, 54],
   [67, 56, 70, 49, 56],
   [99, 67, 52, 70, 56],
   [67, 70, 52],
   [83, 70, 54],
   [83, 79, 50, 70, 50]]

/-- The codes of `montrealList`. -/
def montrealN : List (List Nat) :=
  [[67, 70, 67, 45, 49, 49],
   [67, 70, 67, 45, 49, 50],
   [67, 70, 67, 45, 49, 49, 51],
   [67, 70, 67, 45, 49, 49, 52],
   [67, 70, 67, 45, 49, 49, 53],
   [67, 72, 51, 66, 114],
   [67, 67, 108, 52],
   [67, 72, 51, 67, 67, 108, 51],
   [72, 45, 49, 50, 48, 50],
   [72, 45, 49, 50, 49, 49],
   [72, 45, 49, 51, 48, 49],
   [72, 45, 50, 52, 48, 50],
   [72, 67, 70, 67, 45, 49, 50, 51],
   [72, 67, 70, 67, 45, 49, 52, 50, 98],
   [72, 67, 70, 67, 45, 49, 52, 49, 98],
   [72, 67, 70, 67, 45, 50, 50],
   [67, 72, 67, 108, 51],
   [67, 72, 51, 67, 108],
   [67, 72, 50, 67, 108, 50]]

/-- The codes of `variableDict`. -/
def variableN : List (List Nat × List Nat) :=
  [([83, 117, 114, 102, 97, 99, 101, 32, 65, 105, 114, 32, 84, 101, 109, 112, 101, 114, 97, 116, 117, 114, 101, 32,
     67, 104, 97, 110, 103, 101], [100, 84, 95, 103, 108, 111, 98, 95, 97, 105, 114]),
   ([83, 117, 114, 102, 97, 99, 101, 32, 65, 105, 114, 32, 79, 99, 101, 97, 110, 32, 66, 108, 101, 110, 100, 101, 100,
     32, 84, 101, 109, 112, 101, 114, 97, 116, 117, 114, 101, 32, 67, 104, 97, 110, 103, 101], [100, 84, 95, 103,
     108, 111, 98]),
   ([83, 117, 114, 102, 97, 99, 101, 32, 65, 105, 114, 32, 79, 99, 101, 97, 110, 32, 84, 101, 109, 112, 101, 114, 97,
     116, 117, 114, 101, 32, 67, 104, 97, 110, 103, 101], [100, 84, 95, 103, 108, 111, 98, 95, 115, 101, 97]),
   ([69, 102, 102, 101, 99, 116, 105, 118, 101, 32, 82, 97, 100, 105, 97, 116, 105, 118, 101, 32, 70, 111, 114, 99,
     105, 110, 103], [84, 111, 116, 97, 108, 95, 102, 111, 114, 99, 105, 110, 103, 43, 115, 117, 110, 118, 111, 108,
     99]),
   ([69, 102, 102, 101, 99, 116, 105, 118, 101, 32, 82, 97, 100, 105, 97, 116, 105, 118, 101, 32, 70, 111, 114, 99,
     105, 110, 103, 124, 65, 110, 116, 104, 114, 111, 112, 111, 103, 101, 110, 105, 99], [84, 111, 116, 97, 108, 95,
     102, 111, 114, 99, 105, 110, 103]),
   ([69, 102, 102, 101, 99, 116, 105, 118, 101, 32, 82, 97, 100, 105, 97, 116, 105, 118, 101, 32, 70, 111, 114, 99,
     105, 110, 103, 124, 65, 110, 116, 104, 114, 111, 112, 111, 103, 101, 110, 105, 99, 124, 65, 101, 114, 111, 115,
     111, 108], [65, 101, 114, 111, 115, 111, 108, 115]),
   ([69, 102, 102, 101, 99, 116, 105, 118, 101, 32, 82, 97, 100, 105, 97, 116, 105, 118, 101, 32, 70, 111, 114, 99,
     105, 110, 103, 124, 65, 110, 116, 104, 114, 111, 112, 111, 103, 101, 110, 105, 99, 124, 65, 101, 114, 111, 115,
     111, 108, 124, 65, 101, 114, 111, 115, 111, 108, 45, 114, 97, 100, 105, 97, 116, 105, 111, 110, 32, 73, 110,
     116, 101, 114, 97, 99, 116, 105, 111, 110, 115], [65, 101, 114, 111, 115, 111, 108, 115, 124, 68, 105, 114, 101,
     99, 116, 32, 69, 102, 102, 101, 99, 116]),
   ([69, 102, 102, 101, 99, 116, 105, 118, 101, 32, 82, 97, 100, 105, 97, 116, 105, 118, 101, 32, 70, 111, 114, 99,
     105, 110, 103, 124, 65, 110, 116, 104, 114, 111, 112, 111, 103, 101, 110, 105, 99, 124, 65, 101, 114, 111, 115,
     111, 108, 124, 65, 101, 114, 111, 115, 111, 108, 45, 114, 97, 100, 105, 97, 116, 105, 111, 110, 32, 73, 110,
     116, 101, 114, 97, 99, 116, 105, 111, 110, 115, 124, 66, 67], [66, 67]),
   ([69, 102, 102, 101, 99, 116, 105, 118, 101, 32, 82, 97, 100, 105, 97, 116, 105, 118, 101, 32, 70, 111, 114, 99,
     105, 110, 103, 124, 65, 110, 116, 104, 114, 111, 112, 111, 103, 101, 110, 105, 99, 124, 65, 101, 114, 111, 115,
     111, 108, 124, 65, 101, 114, 111, 115, 111, 108, 45, 114, 97, 100, 105, 97, 116, 105, 111, 110, 32, 73, 110,
     116, 101, 114, 97, 99, 116, 105, 111, 110, 115, 124, 79, 67], [79, 67]),
   ([69, 102, 102, 101, 99, 116, 105, 118, 101, 32, 82, 97, 100, 105, 97, 116, 105, 118, 101, 32, 70, 111, 114, 99,
     105, 110, 103, 124, 65, 110, 116, 104, 114, 111, 112, 111, 103, 101, 110, 105, 99, 124, 65, 101, 114, 111, 115,
     111, 108, 124, 65, 101, 114, 111, 115, 111, 108, 45, 114, 97, 100, 105, 97, 116, 105, 111, 110, 32, 73, 110,
     116, 101, 114, 97, 99, 116, 105, 111, 110, 115, 124, 83, 117, 108, 102, 97, 116, 101], [83, 79, 52, 95, 68, 73,
     82]),
   ([69, 102, 102, 101, 99, 116, 105, 118, 101, 32, 82, 97, 100, 105, 97, 116, 105, 118, 101, 32, 70, 111, 114, 99,
     105, 110, 103, 124, 65, 110, 116, 104, 114, 111, 112, 111, 103, 101, 110, 105, 99, 124, 65, 101, 114, 111, 115,
     111, 108, 124, 65, 101, 114, 111, 115, 111, 108, 45, 99, 108, 111, 117, 100, 32, 73, 110, 116, 101, 114, 97, 99,
     116, 105, 111, 110, 115], [83, 79, 52, 95, 73, 78, 68]),
   ([69, 102, 102, 101, 99, 116, 105, 118, 101, 32, 82, 97, 100, 105, 97, 116, 105, 118, 101, 32, 70, 111, 114, 99,
     105, 110, 103, 124, 71, 114, 101, 101, 110, 104, 111, 117, 115, 101, 32, 71, 97, 115, 101, 115], [71, 72, 71]),
   ([69, 102, 102, 101, 99, 116, 105, 118, 101, 32, 82, 97, 100, 105, 97, 116, 105, 118, 101, 32, 70, 111, 114, 99,
     105, 110, 103, 124, 65, 110, 116, 104, 114, 111, 112, 111, 103, 101, 110, 105, 99, 124, 70, 45, 71, 97, 115,
     101, 115], [70, 103, 97, 115]),
   ([69, 102, 102, 101, 99, 116, 105, 118, 101, 32, 82, 97, 100, 105, 97, 116, 105, 118, 101, 32, 70, 111, 114, 99,
     105, 110, 103, 124, 65, 110, 116, 104, 114, 111, 112, 111, 103, 101, 110, 105, 99, 124, 67, 79, 50], [67, 79,
     50]),
   ([69, 102, 102, 101, 99, 116, 105, 118, 101, 32, 82, 97, 100, 105, 97, 116, 105, 118, 101, 32, 70, 111, 114, 99,
     105, 110, 103, 124, 65, 110, 116, 104, 114, 111, 112, 111, 103, 101, 110, 105, 99, 124, 67, 72, 52], [67, 72,
     52]),
   ([69, 102, 102, 101, 99, 116, 105, 118, 101, 32, 82, 97, 100, 105, 97, 116, 105, 118, 101, 32, 70, 111, 114, 99,
     105, 110, 103, 124, 65, 110, 116, 104, 114, 111, 112, 111, 103, 101, 110, 105, 99, 124, 78, 50, 79], [78, 50,
     79]),
   ([69, 102, 102, 101, 99, 116, 105, 118, 101, 32, 82, 97, 100, 105, 97, 116, 105, 118, 101, 32, 70, 111, 114, 99,
     105, 110, 103, 124, 65, 110, 116, 104, 114, 111, 112, 111, 103, 101, 110, 105, 99, 124, 79, 116, 104, 101, 114,
     124, 83, 116, 114, 97, 116, 111, 115, 112, 104, 101, 114, 105, 99, 32, 72, 50, 79], [83, 84, 82, 65, 84, 95, 72,
     50, 79]),
   ([69, 102, 102, 101, 99, 116, 105, 118, 101, 32, 82, 97, 100, 105, 97, 116, 105, 118, 101, 32, 70, 111, 114, 99,
     105, 110, 103, 124, 65, 110, 116, 104, 114, 111, 112, 111, 103, 101, 110, 105, 99, 124, 79, 122, 111, 110, 101,
     124, 83, 116, 114, 97, 116, 111, 115, 112, 104, 101, 114, 105, 99, 32, 67, 111, 110, 116, 114, 105, 98, 117,
     116, 105, 111, 110], [83, 84, 82, 65, 84, 95, 79, 51]),
   ([69, 102, 102, 101, 99, 116, 105, 118, 101, 32, 82, 97, 100, 105, 97, 116, 105, 118, 101, 32, 70, 111, 114, 99,
     105, 110, 103, 124, 65, 110, 116, 104, 114, 111, 112, 111, 103, 101, 110, 105, 99, 124, 79, 122, 111, 110, 101,
     124, 84, 114, 111, 112, 111, 115, 112, 104, 101, 114, 105, 99, 32, 67, 111, 110, 116, 114, 105, 98, 117, 116,
     105, 111, 110], [84, 82, 79, 80, 95, 79, 51]),
   ([69, 109, 105, 115, 115, 105, 111, 110, 115, 124, 67, 79, 50], [67, 79, 50]),
   ([69, 109, 105, 115, 115, 105, 111, 110, 115, 124, 67, 72, 52], [67, 72, 52]),
   ([69, 109, 105, 115, 115, 105, 111, 110, 115, 124, 78, 50, 79], [78, 50, 79]),
   ([72, 101, 97, 116, 32, 85, 112, 116, 97, 107, 101], [82, 73, 66, 95, 103, 108, 111, 98]),
   ([72, 101, 97, 116, 32, 67, 111, 110, 116, 101, 110, 116, 124, 79, 99, 101, 97, 110], [79, 72, 67, 84, 79, 84]),
   ([72, 101, 97, 116, 32, 67, 111, 110, 116, 101, 110, 116, 124, 79, 99, 101, 97, 110, 124, 48, 45, 55, 48, 48, 109],
     [79, 72, 67, 55, 48, 48]),
   ([65, 110, 111, 109, 97, 108, 111, 117, 115, 32, 82, 97, 100, 105, 97, 116, 105, 111, 110], [97, 110, 111, 109, 97,
     108, 111, 117, 115, 95, 114, 97, 100, 105, 97, 116, 105, 111, 110]),
   ([65, 116, 109, 111, 115, 112, 104, 101, 114, 105, 99, 32, 67, 111, 110, 99, 101, 110, 116, 114, 97, 116, 105, 111,
     110, 115, 124, 67, 79, 50], [67, 79, 50]),
   ([65, 116, 109, 111, 115, 112, 104, 101, 114, 105, 99, 32, 67, 111, 110, 99, 101, 110, 116, 114, 97, 116, 105, 111,
     110, 115, 124, 67, 72, 52], [67, 72, 52]),
   ([65, 116, 109, 111, 115, 112, 104, 101, 114, 105, 99, 32, 67, 111, 110, 99, 101, 110, 116, 114, 97, 116, 105, 111,
     110, 115, 124, 78, 50, 79], [78, 50, 79]),
   ([65, 116, 109, 111, 115, 112, 104, 101, 114, 105, 99, 32, 67, 111, 110, 99, 101, 110, 116, 114, 97, 116, 105, 111,
     110, 115, 124, 79, 122, 111, 110, 101, 124, 84, 114, 111, 112, 111, 115, 112, 104, 101, 114, 105, 99, 39], [84,
     82, 79, 80, 95, 79, 51]),
   ([69, 102, 102, 101, 99, 116, 105, 118, 101, 32, 82, 97, 100, 105, 97, 116, 105, 118, 101, 32, 70, 111, 114, 99,
     105, 110, 103, 124, 65, 110, 116, 104, 114, 111, 112, 111, 103, 101, 110, 105, 99, 124, 70, 45, 71, 97, 115,
     101, 115, 124, 72, 70, 67, 124, 72, 70, 67, 49, 50, 53], [72, 70, 67, 49, 50, 53]),
   ([65, 116, 109, 111, 115, 112, 104, 101, 114, 105, 99, 32, 67, 111, 110, 99, 101, 110, 116, 114, 97, 116, 105, 111,
     110, 115, 124, 70, 45, 71, 97, 115, 101, 115, 124, 72, 70, 67, 124, 72, 70, 67, 49, 50, 53], [72, 70, 67, 49,
     50, 53]),
   ([69, 102, 102, 101, 99, 116, 105, 118, 101, 32, 82, 97, 100, 105, 97, 116, 105, 118, 101, 32, 70, 111, 114, 99,
     105, 110, 103, 124, 65, 110, 116, 104, 114, 111, 112, 111, 103, 101, 110, 105, 99, 124, 70, 45, 71, 97, 115,
     101, 115, 124, 72, 70, 67, 124, 72, 70, 67, 49, 51, 52, 97], [72, 70, 67, 49, 51, 52, 97]),
   ([65, 116, 109, 111, 115, 112, 104, 101, 114, 105, 99, 32, 67, 111, 110, 99, 101, 110, 116, 114, 97, 116, 105, 111,
     110, 115, 124, 70, 45, 71, 97, 115, 101, 115, 124, 72, 70, 67, 124, 72, 70, 67, 49, 51, 52, 97], [72, 70, 67,
     49, 51, 52, 97]),
   ([69, 102, 102, 101, 99, 116, 105, 118, 101, 32, 82, 97, 100, 105, 97, 116, 105, 118, 101, 32, 70, 111, 114, 99,
     105, 110, 103, 124, 65, 110, 116, 104, 114, 111, 112, 111, 103, 101, 110, 105, 99, 124, 70, 45, 71, 97, 115,
     101, 115, 124, 72, 70, 67, 124, 72, 70, 67, 49, 52, 51, 97], [72, 70, 67, 49, 52, 51, 97]),
   ([65, 116, 109, 111, 115, 112, 104, 101, 114, 105, 99, 32, 67, 111, 110, 99, 101, 110, 116, 114, 97, 116, 105, 111,
     110, 115, 124, 70, 45, 71, 97, 115, 101, 115, 124, 72, 70, 67, 124, 72, 70, 67, 49, 52, 51, 97], [72, 70, 67,
     49, 52, 51, 97]),
   ([69, 102, 102, 101, 99, 116, 105, 118, 101, 32, 82, 97, 100, 105, 97, 116, 105, 118, 101, 32, 70, 111, 114, 99,
     105, 110, 103, 124, 65, 110, 116, 104, 114, 111, 112, 111, 103, 101, 110, 105, 99, 124, 70, 45, 71, 97, 115,
     101, 115, 124, 72, 70, 67, 124, 72, 70, 67, 49, 53, 50, 97], [72, 70, 67, 49, 53, 50, 97]),
   ([65, 116, 109, 111, 115, 112, 104, 101, 114, 105, 99, 32, 67, 111, 110, 99, 101, 110, 116, 114, 97, 116, 105, 111,
     110, 115, 124, 70, 45, 71, 97, 115, 101, 115, 124, 72, 70, 67, 124, 72, 70, 67, 49, 53, 50, 97], [72, 70, 67,
     49, 53, 50, 97]),
   ([69, 102, 102, 101, 99, 116, 105, 118, 101, 32, 82, 97, 100, 105, 97, 116, 105, 118, 101, 32, 70, 111, 114, 99,
     105, 110, 103, 124, 65, 110, 116, 104, 114, 111, 112, 111, 103, 101, 110, 105, 99, 124, 70, 45, 71, 97, 115,
     101, 115, 124, 72, 70, 67, 124, 72, 70, 67, 50, 50, 55, 101, 97], [72, 70, 67, 50, 50, 55, 101, 97]),
   ([65, 116, 109, 111, 115, 112, 104, 101, 114, 105, 99, 32, 67, 111, 110, 99, 101, 110, 116, 114, 97, 116, 105, 111,
     110, 115, 124, 70, 45, 71, 97, 115, 101, 115, 124, 72, 70, 67, 124, 72, 70, 67, 50, 50, 55, 101, 97], [72, 70,
     67, 50, 50, 55, 101, 97]),
   ([69, 102, 102, 101, 99, 116, 105, 118, 101, 32, 82, 97, 100, 105, 97, 116, 105, 118, 101, 32, 70, 111, 114, 99,
     105, 110, 103, 124, 65, 110, 116, 104, 114, 111, 112, 111, 103, 101, 110, 105, 99, 124, 70, 45, 71, 97, 115,
     101, 115, 124, 72, 70, 67, 124, 72, 70, 67, 50, 51, 54, 102, 97], [72, 70, 67, 50, 51, 54, 102, 97]),
   ([65, 116, 109, 111, 115, 112, 104, 101, 114, 105, 99, 32, 67, 111, 110, 99, 101, 110, 116, 114, 97, 116, 105, 111,
     110, 115, 124, 70, 45, 71, 97, 115, 101, 115, 124, 72, 70, 67, 124, 72, 70, 67, 50, 51, 54, 102, 97], [72, 70,
     67, 50, 51, 54, 102, 97]),
   ([69, 102, 102, 101, 99, 116, 105, 118, 101, 32, 82, 97, 100, 105, 97, 116, 105, 118, 101, 32, 70, 111, 114, 99,
     105, 110, 103, 124, 65, 110, 116, 104, 114, 111, 112, 111, 103, 101, 110, 105, 99, 124, 70, 45, 71, 97, 115,
     101, 115, 124, 72, 70, 67, 124, 72, 70, 67, 50, 51], [72, 70, 67, 50, 51]),
   ([65, 116, 109, 111, 115, 112, 104, 101, 114, 105, 99, 32, 67, 111, 110, 99, 101, 110, 116, 114, 97, 116, 105, 111,
     110, 115, 124, 70, 45, 71, 97, 115, 101, 115, 124, 72, 70, 67, 124, 72, 70, 67, 50, 51], [72, 70, 67, 50, 51]),
   ([69, 102, 102, 101, 99, 116, 105, 118, 101, 32, 82, 97, 100, 105, 97, 116, 105, 118, 101, 32, 70, 111, 114, 99,
     105, 110, 103, 124, 65, 110, 116, 104, 114, 111, 112, 111, 103, 101, 110, 105, 99, 124, 70, 45, 71, 97, 115,
     101, 115, 124, 72, 70, 67, 124, 72, 70, 67, 50, 52, 53, 102, 97], [72, 70, 67, 50, 52, 53, 102, 97]),
   ([65, 116, 109, 111, 115, 112, 104, 101, 114, 105, 99, 32, 67, 111, 110, 99, 101, 110, 116, 114, 97, 116, 105, 111,
     110, 115, 124, 70, 45, 71, 97, 115, 101, 115, 124, 72, 70, 67, 124, 72, 70, 67, 50, 52, 53, 102, 97], [72, 70,
     67, 50, 52, 53, 102, 97]),
   ([69, 102, 102, 101, 99, 116, 105, 118, 101, 32, 82, 97, 100, 105, 97, 116, 105, 118, 101, 32, 70, 111, 114, 99,
     105, 110, 103, 124, 65, 110, 116, 104, 114, 111, 112, 111, 103, 101, 110, 105, 99, 124, 70, 45, 71, 97, 115,
     101, 115, 124, 72, 70, 67, 124, 72, 70, 67, 51, 50], [72, 70, 67, 51, 50]),
   ([65, 116, 109, 111, 115, 112, 104, 101, 114, 105, 99, 32, 67, 111, 110, 99, 101, 110, 116, 114, 97, 116, 105, 111,
     110, 115, 124, 70, 45, 71, 97, 115, 101, 115, 124, 72, 70, 67, 124, 72, 70, 67, 51, 50], [72, 70, 67, 51, 50]),
   ([69, 102, 102, 101, 99, 116, 105, 118, 101, 32, 82, 97, 100, 105, 97, 116, 105, 118, 101, 32, 70, 111, 114, 99,
     105, 110, 103, 124, 65, 110, 116, 104, 114, 111, 112, 111, 103, 101, 110, 105, 99, 124, 70, 45, 71, 97, 115,
     101, 115, 124, 72, 70, 67, 124, 72, 70, 67, 51, 54, 53, 109, 102, 99], [72, 70, 67, 51, 54, 53, 109, 102, 99]),
   ([65, 116, 109, 111, 115, 112, 104, 101, 114, 105, 99, 32, 67, 111, 110, 99, 101, 110, 116, 114, 97, 116, 105, 111,
     110, 115, 124, 70, 45, 71, 97, 115, 101, 115, 124, 72, 70, 67, 124, 72, 70, 67, 51, 54, 53, 109, 102, 99], [72,
     70, 67, 51, 54, 53, 109, 102, 99]),
   ([69, 102, 102, 101, 99, 116, 105, 118, 101, 32, 82, 97, 100, 105, 97, 116, 105, 118, 101, 32, 70, 111, 114, 99,
     105, 110, 103, 124, 65, 110, 116, 104, 114, 111, 112, 111, 103, 101, 110, 105, 99, 124, 70, 45, 71, 97, 115,
     101, 115, 124, 72, 70, 67, 124, 72, 70, 67, 52, 51, 49, 48, 109, 101, 101], [72, 70, 67, 52, 51, 49, 48, 109,
     101, 101]),
   ([65, 116, 109, 111, 115, 112, 104, 101, 114, 105, 99, 32, 67, 111, 110, 99, 101, 110, 116, 114, 97, 116, 105, 111,
     110, 115, 124, 70, 45, 71, 97, 115, 101, 115, 124, 72, 70, 67, 124, 72, 70, 67, 52, 51, 49, 48, 109, 101, 101],
     [72, 70, 67, 52, 51, 49, 48, 109, 101, 101]),
   ([69, 102, 102, 101, 99, 116, 105, 118, 101, 32, 82, 97, 100, 105, 97, 116, 105, 118, 101, 32, 70, 111, 114, 99,
     105, 110, 103, 124, 65, 110, 116, 104, 114, 111, 112, 111, 103, 101, 110, 105, 99, 124, 70, 45, 71, 97, 115,
     101, 115, 124, 78, 70, 51], [78, 70, 51]),
   ([65, 116, 109, 111, 115, 112, 104, 101, 114, 105, 99, 32, 67, 111, 110, 99, 101, 110, 116, 114, 97, 116, 105, 111,
     110, 115, 124, 70, 45, 71, 97, 115, 101, 115, 124, 78, 70, 51], [78, 70, 51]),
   ([69, 102, 102, 101, 99, 116, 105, 118, 101, 32, 82, 97, 100, 105, 97, 116, 105, 118, 101, 32, 70, 111, 114, 99,
     105, 110, 103, 124, 65, 110, 116, 104, 114, 111, 112, 111, 103, 101, 110, 105, 99, 124, 70, 45, 71, 97, 115,
     101, 115, 124, 80, 70, 67, 124, 67, 50, 70, 54], [67, 50, 70, 54]),
   ([65, 116, 109, 111, 115, 112, 104, 101, 114, 105, 99, 32, 67, 111, 110, 99, 101, 110, 116, 114, 97, 116, 105, 111,
     110, 115, 124, 70, 45, 71, 97, 115, 101, 115, 124, 80, 70, 67, 124, 67, 50, 70, 54], [67, 50, 70, 54]),
   ([69, 102, 102, 101, 99, 116, 105, 118, 101, 32, 82, 97, 100, 105, 97, 116, 105, 118, 101, 32, 70, 111, 114, 99,
     105, 110, 103, 124, 65, 110, 116, 104, 114, 111, 112, 111, 103, 101, 110, 105, 99, 124, 70, 45, 71, 97, 115,
     101, 115, 124, 80, 70, 67, 124, 67, 51, 70, 56], [67, 51, 70, 56]),
   ([65, 116, 109, 111, 115, 112, 104, 101, 114, 105, 99, 32, 67, 111, 110, 99, 101, 110, 116, 114, 97, 116, 105, 111,
     110, 115, 124, 70, 45, 71, 97, 115, 101, 115, 124, 80, 70, 67, 124, 67, 51, 70, 56], [67, 51, 70, 56]),
   ([69, 102, 102, 101, 99, 116, 105, 118, 101, 32, 82, 97, 100, 105, 97, 116, 105, 118, 101, 32, 70, 111, 114, 99,
     105, 110, 103, 124, 65, 110, 116, 104, 114, 111, 112, 111, 103, 101, 110, 105, 99, 124, 70, 45, 71, 97, 115,
     101, 115, 124, 80, 70, 67, 124, 67, 52, 70, 49, 48], [67, 52, 70, 49, 48]),
   ([65, 116, 109, 111, 115, 112, 104, 101, 114, 105, 99, 32, 67, 111, 110, 99, 101, 110, 116, 114, 97, 116, 105, 111,
     110, 115, 124, 70, 45, 71, 97, 115, 101, 115, 124, 80, 70, 67, 124, 67, 52, 70, 49, 48], [67, 52, 70, 49, 48]),
   ([69, 102, 102, 101, 99, 116, 105, 118, 101, 32, 82, 97, 100, 105, 97, 116, 105, 118, 101, 32, 70, 111, 114, 99,
     105, 110, 103, 124, 65, 110, 116, 104, 114, 111, 112, 111, 103, 101, 110, 105, 99, 124, 70, 45, 71, 97, 115,
     101, 115, 124, 80, 70, 67, 124, 67, 53, 70, 49, 50], [67, 53, 70, 49, 50]),
   ([65, 116, 109, 111, 115, 112, 104, 101, 114, 105, 99, 32, 67, 111, 110, 99, 101, 110, 116, 114, 97, 116, 105, 111,
     110, 115, 124, 70, 45, 71, 97, 115, 101, 115, 124, 80, 70, 67, 124, 67, 53, 70, 49, 50], [67, 53, 70, 49, 50]),
   ([69, 102, 102, 101, 99, 116, 105, 118, 101, 32, 82, 97, 100, 105, 97, 116, 105, 118, 101, 32, 70, 111, 114, 99,
     105, 110, 103, 124, 65, 110, 116, 104, 114, 111, 112, 111, 103, 101, 110, 105, 99, 124, 70, 45, 71, 97, 115,
     101, 115, 124, 80, 70, 67, 124, 67, 54, 70, 49, 52], [67, 54, 70, 49, 52]),
   ([65, 116, 109, 111, 115, 112, 104, 101, 114, 105, 99, 32, 67, 111, 110, 99, 101, 110, 116, 114, 97, 116, 105, 111,
     110, 115, 124, 70, 45, 71, 97, 115, 101, 115, 124, 80, 70, 67, 124, 67, 54, 70, 49, 52], [67, 54, 70, 49, 52]),
   ([69, 102, 102, 101, 99, 116, 105, 118, 101, 32, 82, 97, 100, 105, 97, 116, 105, 118, 101, 32, 70, 111, 114, 99,
     105, 110, 103, 124, 65, 110, 116, 104, 114, 111, 112, 111, 103, 101, 110, 105, 99, 124, 70, 45, 71, 97, 115,
     101, 115, 124, 80, 70, 67, 124, 67, 55, 70, 49, 54], [67, 55, 70, 49, 54]),
   ([65, 116, 109, 111, 115, 112, 104, 101, 114, 105, 99, 32, 67, 111, 110, 99, 101, 110, 116, 114, 97, 116, 105, 111,
     110, 115, 124, 70, 45, 71, 97, 115, 101, 115, 124, 80, 70, 67, 124, 67, 55, 70, 49, 54], [67, 55, 70, 49, 54]),
   ([69, 102, 102, 101, 99, 116, 105, 118, 101, 32, 82, 97, 100, 105, 97, 116, 105, 118, 101, 32, 70, 111, 114, 99,
     105, 110, 103, 124, 65, 110, 116, 104, 114, 111, 112, 111, 103, 101, 110, 105, 99, 124, 70, 45, 71, 97, 115,
     101, 115, 124, 80, 70, 67, 124, 67, 56, 70, 49, 56], [67, 56, 70, 49, 56]),
   ([65, 116, 109, 111, 115, 112, 104, 101, 114, 105, 99, 32, 67, 111, 110, 99, 101, 110, 116, 114, 97, 116, 105, 111,
     110, 115, 124, 70, 45, 71, 97, 115, 101, 115, 124, 80, 70, 67, 124, 67, 56, 70, 49, 56], [67, 56, 70, 49, 56]),
   ([69, 102, 102, 101, 99, 116, 105, 118, 101, 32, 82, 97, 100, 105, 97, 116, 105, 118, 101, 32, 70, 111, 114, 99,
     105, 110, 103, 124, 65, 110, 116, 104, 114, 111, 112, 111, 103, 101, 110, 105, 99, 124, 70, 45, 71, 97, 115,
     101, 115, 124, 80, 70, 67, 124, 99, 67, 52, 70, 56], [99, 67, 52, 70, 56]),
   ([65, 116, 109, 111, 115, 112, 104, 101, 114, 105, 99, 32, 67, 111, 110, 99, 101, 110, 116, 114, 97, 116, 105, 111,
     110, 115, 124, 70, 45, 71, 97, 115, 101, 115, 124, 80, 70, 67, 124, 99, 67, 52, 70, 56], [99, 67, 52, 70, 56]),
   ([69, 102, 102, 101, 99, 116, 105, 118, 101, 32, 82, 97, 100, 105, 97, 116, 105, 118, 101, 32, 70, 111, 114, 99,
     105, 110, 103, 124, 65, 110, 116, 104, 114, 111, 112, 111, 103, 101, 110, 105, 99, 124, 70, 45, 71, 97, 115,
     101, 115, 124, 80, 70, 67, 124, 67, 70, 52], [67, 70, 52]),
   ([65, 116, 109, 111, 115, 112, 104, 101, 114, 105, 99, 32, 67, 111, 110, 99, 101, 110, 116, 114, 97, 116, 105, 111,
     110, 115, 124, 70, 45, 71, 97, 115, 101, 115, 124, 80, 70, 67, 124, 67, 70, 52], [67, 70, 52]),
   ([69, 102, 102, 101, 99, 116, 105, 118, 101, 32, 82, 97, 100, 105, 97, 116, 105, 118, 101, 32, 70, 111, 114, 99,
     105, 110, 103, 124, 65, 110, 116, 104, 114, 111, 112, 111, 103, 101, 110, 105, 99, 124, 70, 45, 71, 97, 115,
     101, 115, 124, 83, 70, 54], [83, 70, 54]),
   ([65, 116, 109, 111, 115, 112, 104, 101, 114, 105, 99, 32, 67, 111, 110, 99, 101, 110, 116, 114, 97, 116, 105, 111,
     110, 115, 124, 70, 45, 71, 97, 115, 101, 115, 124, 83, 70, 54], [83, 70, 54]),
   ([69, 102, 102, 101, 99, 116, 105, 118, 101, 32, 82, 97, 100, 105, 97, 116, 105, 118, 101, 32, 70, 111, 114, 99,
     105, 110, 103, 124, 65, 110, 116, 104, 114, 111, 112, 111, 103, 101, 110, 105, 99, 124, 70, 45, 71, 97, 115,
     101, 115, 124, 83, 79, 50, 70, 50], [83, 79, 50, 70, 50]),
   ([65, 116, 109, 111, 115, 112, 104, 101, 114, 105, 99, 32, 67, 111, 110, 99, 101, 110, 116, 114, 97, 116, 105, 111,
     110, 115, 124, 70, 45, 71, 97, 115, 101, 115, 124, 83, 79, 50, 70, 50], [83, 79, 50, 70, 50]),
   ([69, 102, 102, 101, 99, 116, 105, 118, 101, 32, 82, 97, 100, 105, 97, 116, 105, 118, 101, 32, 70, 111, 114, 99,
     105, 110, 103, 124, 65, 110, 116, 104, 114, 111, 112, 111, 103, 101, 110, 105, 99, 124, 77, 111, 110, 116, 114,
     101, 97, 108, 32, 71, 97, 115, 101, 115, 124, 67, 70, 67, 124, 67, 70, 67, 49, 49], [67, 70, 67, 45, 49, 49]),
   ([65, 116, 109, 111, 115, 112, 104, 101, 114, 105, 99, 32, 67, 111, 110, 99, 101, 110, 116, 114, 97, 116, 105, 111,
     110, 115, 124, 77, 111, 110, 116, 114, 101, 97, 108, 32, 71, 97, 115, 101, 115, 124, 67, 70, 67, 124, 67, 70,
     67, 49, 49], [67, 70, 67, 45, 49, 49]),
   ([69, 102, 102, 101, 99, 116, 105, 118, 101, 32, 82, 97, 100, 105, 97, 116, 105, 118, 101, 32, 70, 111, 114, 99,
     105, 110, 103, 124, 65, 110, 116, 104, 114, 111, 112, 111, 103, 101, 110, 105, 99, 124, 77, 111, 110, 116, 114,
     101, 97, 108, 32, 71, 97, 115, 101, 115, 124, 67, 70, 67, 124, 67, 70, 67, 49, 50], [67, 70, 67, 45, 49, 50]),
   ([65, 116, 109, 111, 115, 112, 104, 101, 114, 105, 99, 32, 67, 111, 110, 99, 101, 110, 116, 114, 97, 116, 105, 111,
     110, 115, 124, 77, 111, 110, 116, 114, 101, 97, 108, 32, 71, 97, 115, 101, 115, 124, 67, 70, 67, 124, 67, 70,
     67, 49, 50], [67, 70, 67, 45, 49, 50]),
   ([69, 102, 102, 101, 99, 116, 105, 118, 101, 32, 82, 97, 100, 105, 97, 116, 105, 118, 101, 32, 70, 111, 114, 99,
     105, 110, 103, 124, 65, 110, 116, 104, 114, 111, 112, 111, 103, 101, 110, 105, 99, 124, 77, 111, 110, 116, 114,
     101, 97, 108, 32, 71, 97, 115, 101, 115, 124, 67, 70, 67, 124, 67, 70, 67, 49, 49, 51], [67, 70, 67, 45, 49, 49,
     51]),
   ([65, 116, 109, 111, 115, 112, 104, 101, 114, 105, 99, 32, 67, 111, 110, 99, 101, 110, 116, 114, 97, 116, 105, 111,
     110, 115, 124, 77, 111, 110, 116, 114, 101, 97, 108, 32, 71, 97, 115, 101, 115, 124, 67, 70, 67, 124, 67, 70,
     67, 49, 49, 51], [67, 70, 67, 45, 49, 49, 51]),
   ([69, 102, 102, 101, 99, 116, 105, 118, 101, 32, 82, 97, 100, 105, 97, 116, 105, 118, 101, 32, 70, 111, 114, 99,
     105, 110, 103, 124, 65, 110, 116, 104, 114, 111, 112, 111, 103, 101, 110, 105, 99, 124, 77, 111, 110, 116, 114,
     101, 97, 108, 32, 71, 97, 115, 101, 115, 124, 67, 70, 67, 124, 67, 70, 67, 49, 49, 52], [67, 70, 67, 45, 49, 49,
     52]),
   ([65, 116, 109, 111, 115, 112, 104, 101, 114, 105, 99, 32, 67, 111, 110, 99, 101, 110, 116, 114, 97, 116, 105, 111,
     110, 115, 124, 77, 111, 110, 116, 114, 101, 97, 108, 32, 71, 97, 115, 101, 115, 124, 67, 70, 67, 124, 67, 70,
     67, 49, 49, 52], [67, 70, 67, 45, 49, 49, 52]),
   ([69, 102, 102, 101, 99, 116, 105, 118, 101, 32, 82, 97, 100, 105, 97, 116, 105, 118, 101, 32, 70, 111, 114, 99,
     105, 110, 103, 124, 65, 110, 116, 104, 114, 111, 112, 111, 103, 101, 110, 105, 99, 124, 77, 111, 110, 116, 114,
     101, 97, 108, 32, 71, 97, 115, 101, 115, 124, 67, 70, 67, 124, 67, 70, 67, 49, 49, 53], [67, 70, 67, 45, 49, 49,
     53]),
   ([65, 116, 109, 111, 115, 112, 104, 101, 114, 105, 99, 32, 67, 111, 110, 99, 101, 110, 116, 114, 97, 116, 105, 111,
     110, 115, 124, 77, 111, 110, 116, 114, 101, 97, 108, 32, 71, 97, 115, 101, 115, 124, 67, 70, 67, 124, 67, 70,
     67, 49, 49, 53], [67, 70, 67, 45, 49, 49, 53]),
   ([69, 102, 102, 101, 99, 116, 105, 118, 101, 32, 82, 97, 100, 105, 97, 116, 105, 118, 101, 32, 70, 111, 114, 99,
     105, 110, 103, 124, 65, 110, 116, 104, 114, 111, 112, 111, 103, 101, 110, 105, 99, 124, 77, 111, 110, 116, 114,
     101, 97, 108, 32, 71, 97, 115, 101, 115, 124, 67, 72, 51, 66, 114], [67, 72, 51, 66, 114]),
   ([65, 116, 109, 111, 115, 112, 104, 101, 114, 105, 99, 32, 67, 111, 110, 99, 101, 110, 116, 114, 97, 116, 105, 111,
     110, 115, 124, 77, 111, 110, 116, 114, 101, 97, 108, 32, 71, 97, 115, 101, 115, 124, 67, 72, 51, 66, 114], [67,
     72, 51, 66, 114]),
   ([69, 102, 102, 101, 99, 116, 105, 118, 101, 32, 82, 97, 100, 105, 97, 116, 105, 118, 101, 32, 70, 111, 114, 99,
     105, 110, 103, 124, 65, 110, 116, 104, 114, 111, 112, 111, 103, 101, 110, 105, 99, 124, 77, 111, 110, 116, 114,
     101, 97, 108, 32, 71, 97, 115, 101, 115, 124, 67, 67, 108, 52], [67, 67, 108, 52]),
   ([65, 116, 109, 111, 115, 112, 104, 101, 114, 105, 99, 32, 67, 111, 110, 99, 101, 110, 116, 114, 97, 116, 105, 111,
     110, 115, 124, 77, 111, 110, 116, 114, 101, 97, 108, 32, 71, 97, 115, 101, 115, 124, 67, 67, 108, 52], [67, 67,
     108, 52]),
   ([69, 102, 102, 101, 99, 116, 105, 118, 101, 32, 82, 97, 100, 105, 97, 116, 105, 118, 101, 32, 70, 111, 114, 99,
     105, 110, 103, 124, 65, 110, 116, 104, 114, 111, 112, 111, 103, 101, 110, 105, 99, 124, 77, 111, 110, 116, 114,
     101, 97, 108, 32, 71, 97, 115, 101, 115, 124, 67, 72, 51, 67, 67, 108, 51], [67, 72, 51, 67, 67, 108, 51]),
   ([65, 116, 109, 111, 115, 112, 104, 101, 114, 105, 99, 32, 67, 111, 110, 99, 101, 110, 116, 114, 97, 116, 105, 111,
     110, 115, 124, 77, 111, 110, 116, 114, 101, 97, 108, 32, 71, 97, 115, 101, 115, 124, 67, 72, 51, 67, 67, 108,
     51], [67, 72, 51, 67, 67, 108, 51]),
   ([69, 102, 102, 101, 99, 116, 105, 118, 101, 32, 82, 97, 100, 105, 97, 116, 105, 118, 101, 32, 70, 111, 114, 99,
     105, 110, 103, 124, 65, 110, 116, 104, 114, 111, 112, 111, 103, 101, 110, 105, 99, 124, 77, 111, 110, 116, 114,
     101, 97, 108, 32, 71, 97, 115, 101, 115, 124, 72, 97, 108, 111, 110, 49, 50, 48, 50], [72, 45, 49, 50, 48, 50]),
   ([65, 116, 109, 111, 115, 112, 104, 101, 114, 105, 99, 32, 67, 111, 110, 99, 101, 110, 116, 114, 97, 116, 105, 111,
     110, 115, 124, 77, 111, 110, 116, 114, 101, 97, 108, 32, 71, 97, 115, 101, 115, 124, 72, 97, 108, 111, 110, 49,
     50, 48, 50], [72, 45, 49, 50, 48, 50]),
   ([69, 102, 102, 101, 99, 116, 105, 118, 101, 32, 82, 97, 100, 105, 97, 116, 105, 118, 101, 32, 70, 111, 114, 99,
     105, 110, 103, 124, 65, 110, 116, 104, 114, 111, 112, 111, 103, 101, 110, 105, 99, 124, 77, 111, 110, 116, 114,
     101, 97, 108, 32, 71, 97, 115, 101, 115, 124, 72, 97, 108, 111, 110, 49, 50, 49, 49], [72, 45, 49, 50, 49, 49]),
   ([65, 116, 109, 111, 115, 112, 104, 101, 114, 105, 99, 32, 67, 111, 110, 99, 101, 110, 116, 114, 97, 116, 105, 111,
     110, 115, 124, 77, 111, 110, 116, 114, 101, 97, 108, 32, 71, 97, 115, 101, 115, 124, 72, 97, 108, 111, 110, 49,
     50, 49, 49], [72, 45, 49, 50, 49, 49]),
   ([69, 102, 102, 101, 99, 116, 105, 118, 101, 32, 82, 97, 100, 105, 97, 116, 105, 118, 101, 32, 70, 111, 114, 99,
     105, 110, 103, 124, 65, 110, 116, 104, 114, 111, 112, 111, 103, 101, 110, 105, 99, 124, 77, 111, 110, 116, 114,
     101, 97, 108, 32, 71, 97, 115, 101, 115, 124, 72, 97, 108, 111, 110, 49, 51, 48, 49], [72, 45, 49, 51, 48, 49]),
   ([65, 116, 109, 111, 115, 112, 104, 101, 114, 105, 99, 32, 67, 111, 110, 99, 101, 110, 116, 114, 97, 116, 105, 111,
     110, 115, 124, 77, 111, 110, 116, 114, 101, 97, 108, 32, 71, 97, 115, 101, 115, 124, 72, 97, 108, 111, 110, 49,
     51, 48, 49], [72, 45, 49, 51, 48, 49]),
   ([69, 102, 102, 101, 99, 116, 105, 118, 101, 32, 82, 97, 100, 105, 97, 116, 105, 118, 101, 32, 70, 111, 114, 99,
     105, 110, 103, 124, 65, 110, 116, 104, 114, 111, 112, 111, 103, 101, 110, 105, 99, 124, 77, 111, 110, 116, 114,
     101, 97, 108, 32, 71, 97, 115, 101, 115, 124, 72, 97, 108, 111, 110, 50, 52, 48, 50], [72, 45, 50, 52, 48, 50]),
   ([65, 116, 109, 111, 115, 112, 104, 101, 114, 105, 99, 32, 67, 111, 110, 99, 101, 110, 116, 114, 97, 116, 105, 111,
     110, 115, 124, 77, 111, 110, 116, 114, 101, 97, 108, 32, 71, 97, 115, 101, 115, 124, 72, 97, 108, 111, 110, 50,
     52, 48, 50], [72, 45, 50, 52, 48, 50]),
   ([69, 102, 102, 101, 99, 116, 105, 118, 101, 32, 82, 97, 100, 105, 97, 116, 105, 118, 101, 32, 70, 111, 114, 99,
     105, 110, 103, 124, 65, 110, 116, 104, 114, 111, 112, 111, 103, 101, 110, 105, 99, 124, 77, 111, 110, 116, 114,
     101, 97, 108, 32, 71, 97, 115, 101, 115, 124, 72, 67, 70, 67, 49, 50, 51], [72, 67, 70, 67, 45, 49, 50, 51]),
   ([65, 116, 109, 111, 115, 112, 104, 101, 114, 105, 99, 32, 67, 111, 110, 99, 101, 110, 116, 114, 97, 116, 105, 111,
     110, 115, 124, 77, 111, 110, 116, 114, 101, 97, 108, 32, 71, 97, 115, 101, 115, 124, 72, 67, 70, 67, 49, 50,
     51], [72, 67, 70, 67, 45, 49, 50, 51]),
   ([69, 102, 102, 101, 99, 116, 105, 118, 101, 32, 82, 97, 100, 105, 97, 116, 105, 118, 101, 32, 70, 111, 114, 99,
     105, 110, 103, 124, 65, 110, 116, 104, 114, 111, 112, 111, 103, 101, 110, 105, 99, 124, 77, 111, 110, 116, 114,
     101, 97, 108, 32, 71, 97, 115, 101, 115, 124, 72, 67, 70, 67, 49, 52, 50, 98], [72, 67, 70, 67, 45, 49, 52, 50,
     98]),
   ([65, 116, 109, 111, 115, 112, 104, 101, 114, 105, 99, 32, 67, 111, 110, 99, 101, 110, 116, 114, 97, 116, 105, 111,
     110, 115, 124, 77, 111, 110, 116, 114, 101, 97, 108, 32, 71, 97, 115, 101, 115, 124, 72, 67, 70, 67, 49, 52, 50,
     98], [72, 67, 70, 67, 45, 49, 52, 50, 98]),
   ([69, 102, 102, 101, 99, 116, 105, 118, 101, 32, 82, 97, 100, 105, 97, 116, 105, 118, 101, 32, 70, 111, 114, 99,
     105, 110, 103, 124, 65, 110, 116, 104, 114, 111, 112, 111, 103, 101, 110, 105, 99, 124, 77, 111, 110, 116, 114,
     101, 97, 108, 32, 71, 97, 115, 101, 115, 124, 72, 67, 70, 67, 49, 52, 49, 98], [72, 67, 70, 67, 45, 49, 52, 49,
     98]),
   ([65, 116, 109, 111, 115, 112, 104, 101, 114, 105, 99, 32, 67, 111, 110, 99, 101, 110, 116, 114, 97, 116, 105, 111,
     110, 115, 124, 77, 111, 110, 116, 114, 101, 97, 108, 32, 71, 97, 115, 101, 115, 124, 72, 67, 70, 67, 49, 52, 49,
     98], [72, 67, 70, 67, 45, 49, 52, 49, 98]),
   ([69, 102, 102, 101, 99, 116, 105, 118, 101, 32, 82, 97, 100, 105, 97, 116, 105, 118, 101, 32, 70, 111, 114, 99,
     105, 110, 103, 124, 65, 110, 116, 104, 114, 111, 112, 111, 103, 101, 110, 105, 99, 124, 77, 111, 110, 116, 114,
     101, 97, 108, 32, 71, 97, 115, 101, 115, 124, 72, 67, 70, 67, 50, 50], [72, 67, 70, 67, 45, 50, 50]),
   ([65, 116, 109, 111, 115, 112, 104, 101, 114, 105, 99, 32, 67, 111, 110, 99, 101, 110, 116, 114, 97, 116, 105, 111,
     110, 115, 124, 77, 111, 110, 116, 114, 101, 97, 108, 32, 71, 97, 115, 101, 115, 124, 72, 67, 70, 67, 50, 50],
     [72, 67, 70, 67, 45, 50, 50]),
   ([69, 102, 102, 101, 99, 116, 105, 118, 101, 32, 82, 97, 100, 105, 97, 116, 105, 118, 101, 32, 70, 111, 114, 99,
     105, 110, 103, 124, 65, 110, 116, 104, 114, 111, 112, 111, 103, 101, 110, 105, 99, 124, 77, 111, 110, 116, 114,
     101, 97, 108, 32, 71, 97, 115, 101, 115, 124, 67, 72, 67, 108, 51], [67, 72, 67, 108, 51]),
   ([65, 116, 109, 111, 115, 112, 104, 101, 114, 105, 99, 32, 67, 111, 110, 99, 101, 110, 116, 114, 97, 116, 105, 111,
     110, 115, 124, 77, 111, 110, 116, 114, 101, 97, 108, 32, 71, 97, 115, 101, 115, 124, 67, 72, 67, 108, 51], [67,
     72, 67, 108, 51]),
   ([69, 102, 102, 101, 99, 116, 105, 118, 101, 32, 82, 97, 100, 105, 97, 116, 105, 118, 101, 32, 70, 111, 114, 99,
     105, 110, 103, 124, 65, 110, 116, 104, 114, 111, 112, 111, 103, 101, 110, 105, 99, 124, 77, 111, 110, 116, 114,
     101, 97, 108, 32, 71, 97, 115, 101, 115, 124, 67, 72, 51, 67, 108], [67, 72, 51, 67, 108]),
   ([65, 116, 109, 111, 115, 112, 104, 101, 114, 105, 99, 32, 67, 111, 110, 99, 101, 110, 116, 114, 97, 116, 105, 111,
     110, 115, 124, 77, 111, 110, 116, 114, 101, 97, 108, 32, 71, 97, 115, 101, 115, 124, 67, 72, 51, 67, 108], [67,
     72, 51, 67, 108]),
   ([69, 102, 102, 101, 99, 116, 105, 118, 101, 32, 82, 97, 100, 105, 97, 116, 105, 118, 101, 32, 70, 111, 114, 99,
     105, 110, 103, 124, 65, 110, 116, 104, 114, 111, 112, 111, 103, 101, 110, 105, 99, 124, 77, 111, 110, 116, 114,
     101, 97, 108, 32, 71, 97, 115, 101, 115, 124, 67, 72, 50, 67, 108, 50], [67, 72, 50, 67, 108, 50]),
   ([65, 116, 109, 111, 115, 112, 104, 101, 114, 105, 99, 32, 67, 111, 110, 99, 101, 110, 116, 114, 97, 116, 105, 111,
     110, 115, 124, 77, 111, 110, 116, 114, 101, 97, 108, 32, 71, 97, 115, 101, 115, 124, 67, 72, 50, 67, 108, 50],
     [67, 72, 50, 67, 108, 50]),
   ([69, 102, 102, 101, 99, 116, 105, 118, 101, 32, 82, 97, 100, 105, 97, 116, 105, 118, 101, 32, 70, 111, 114, 99,
     105, 110, 103, 124, 65, 101, 114, 111, 115, 111, 108, 115, 124, 68, 105, 114, 101, 99, 116, 32, 69, 102, 102,
     101, 99, 116, 124, 83, 79, 120], [83, 79, 52, 95, 68, 73, 82])]

theorem fgas_code : fgasList.map code = fgasN := by
  unfold fgasList fgasN
  simp only [List.map_cons, List.map_nil]
  repeat' (first | apply congrArg₂ List.cons ((code_ofList _).trans (by decide +kernel)) | rfl)

theorem montreal_code : montrealList.map code = montrealN := by
  unfold montrealList montrealN
  simp only [List.map_cons, List.map_nil]
  repeat' (first | apply congrArg₂ List.cons ((code_ofList _).trans (by decide +kernel)) | rfl)

theorem base_code : encD baseDict = baseN := by
  unfold encD baseDict baseN
  simp only [List.map_cons, List.map_nil]
  repeat' (first | refine congrArg₂ List.cons (congrArg₂ Prod.mk ((code_ofList _).trans (by decide +kernel))
    ((code_ofList _).trans (by decide +kernel))) ?_ | rfl)

/-- `fgas_transform`. -/
def fgasTransformN (g : List Nat) : List Nat :=
  cond (prefN cHFC g) (cHFCb ++ g) (cond (prefN cc g || prefN cC g) (cPFC ++ g) g)

theorem fgasTransform_code (g : String) : code (fgasTransform g) = fgasTransformN (code g) := by
  unfold fgasTransform fgasTransformN
  simp only [startsWith_code, cHFC_eq, cc_eq, cC_eq]
  cases prefN cHFC (code g) with
  | true => simp only [if_true, cond_true, code_append, cHFCb_eq]
  | false =>
    cases prefN cc (code g) || prefN cC (code g) with
    | true => simp only [Bool.false_eq_true, if_false, if_true, cond_true, cond_false, code_append, cPFC_eq]
    | false => simp only [Bool.false_eq_true, if_false, cond_false]

/-- `montreal_transform`. -/
def montrealTransformN (g : List Nat) : List Nat :=
  cond (prefN cCFC g) (cCFCb ++ replaceN cDash cEmpty 0 g)
    (cond (prefN cH g) (replaceN cH cHalon 0 g) (cond (prefN cHCFC g) (replaceN cHCFC cHCFC0 0 g) g))

theorem montrealTransform_code (g : String) : code (montrealTransform g) = montrealTransformN (code g) := by
  unfold montrealTransform montrealTransformN
  simp only [startsWith_code, cCFC_eq, cH_eq, cHCFC_eq]
  cases prefN cCFC (code g) with
  | true => simp only [if_true, cond_true, code_append, cCFCb_eq, replace_code, cDash_eq, cEmpty_eq]
  | false =>
    cases prefN cH (code g) with
    | true => simp only [Bool.false_eq_true, if_false, if_true, cond_true, cond_false, replace_code, cH_eq, cHalon_eq]
    | false =>
      cases prefN cHCFC (code g) with
      | true =>
        simp only [Bool.false_eq_true, if_false, if_true, cond_true, cond_false, replace_code, cHCFC_eq, cHCFC0_eq]
      | false => simp only [Bool.false_eq_true, if_false, cond_false]

/-- The two entries of a fluorinated gas. -/
def addFgasN (d : List (List Nat × List Nat)) (g : List Nat) : List (List Nat × List Nat) :=
  setN (setN d (cErfF ++ fgasTransformN g) g) (cConcF ++ fgasTransformN g) g

/-- The two entries of a Montreal gas. -/
def addMontrealN (d : List (List Nat × List Nat)) (g : List Nat) : List (List Nat × List Nat) :=
  setN (setN d (cErfM ++ montrealTransformN g) g) (cConcM ++ montrealTransformN g) g

theorem addFgas_code (d : Dict String) (g : String) : encD (addFgas d g) = addFgasN (encD d) (code g) := by
  unfold addFgas addFgasN
  rw [set_code, set_code, code_append, code_append, fgasTransform_code, cErfF_eq, cConcF_eq]

theorem addMontreal_code (d : Dict String) (g : String) : encD (addMontreal d g) = addMontrealN (encD d) (code g) := by
  unfold addMontreal addMontrealN
  rw [set_code, set_code, code_append, code_append, montrealTransform_code, cErfM_eq, cConcM_eq]

theorem foldl_code {f : Dict String → String → Dict String}
    {g : List (List Nat × List Nat) → List Nat → List (List Nat × List Nat)}
    (h : ∀ d s, encD (f d s) = g (encD d) (code s)) :
    ∀ (l : List String) (d : Dict String), encD (l.foldl f d) = (l.map code).foldl g (encD d) := by
  intro l
  induction l with
  | nil => intro d; rfl
  | cons s l ih => intro d; rw [List.foldl_cons, ih, h, List.map_cons, List.foldl_cons]

theorem variableN_eq : setN (montrealN.foldl addMontrealN (fgasN.foldl addFgasN baseN)) cSOx cSO4 = variableN := by
  decide +kernel

theorem variable_code : encD variableDict = variableN := by
  unfold variableDict
  rw [set_code, foldl_code addMontreal_code, foldl_code addFgas_code, base_code, fgas_code, montreal_code, cSOx_eq,
    cSO4_eq, variableN_eq]

end Verif.Lemmas.ReaderCodes
