/-!
# Names of output variables

The variables of the reader that stand for one column of a result table, with the component they stand for: the dictionary of
variables in the formatting tools, with its naming scheme for the fluorinated gases and the gases of the Montreal protocol.
-/

namespace Verif.Spec

/-- Concentrations: variable and component. -/
def concVariables : List (String × String) :=
  [("Atmospheric Concentrations|CO2", "CO2"),
   ("Atmospheric Concentrations|CH4", "CH4"),
   ("Atmospheric Concentrations|N2O", "N2O"),
   ("Atmospheric Concentrations|F-Gases|HFC|HFC125", "HFC125"),
   ("Atmospheric Concentrations|F-Gases|HFC|HFC134a", "HFC134a"),
   ("Atmospheric Concentrations|F-Gases|HFC|HFC143a", "HFC143a"),
   ("Atmospheric Concentrations|F-Gases|HFC|HFC152a", "HFC152a"),
   ("Atmospheric Concentrations|F-Gases|HFC|HFC227ea", "HFC227ea"),
   ("Atmospheric Concentrations|F-Gases|HFC|HFC236fa", "HFC236fa"),
   ("Atmospheric Concentrations|F-Gases|HFC|HFC23", "HFC23"),
   ("Atmospheric Concentrations|F-Gases|HFC|HFC245fa", "HFC245fa"),
   ("Atmospheric Concentrations|F-Gases|HFC|HFC32", "HFC32"),
   ("Atmospheric Concentrations|F-Gases|HFC|HFC365mfc", "HFC365mfc"),
   ("Atmospheric Concentrations|F-Gases|HFC|HFC4310mee", "HFC4310mee"),
   ("Atmospheric Concentrations|F-Gases|NF3", "NF3"),
   ("Atmospheric Concentrations|F-Gases|PFC|C2F6", "C2F6"),
   ("Atmospheric Concentrations|F-Gases|PFC|C3F8", "C3F8"),
   ("Atmospheric Concentrations|F-Gases|PFC|C4F10", "C4F10"),
   ("Atmospheric Concentrations|F-Gases|PFC|C5F12", "C5F12"),
   ("Atmospheric Concentrations|F-Gases|PFC|C6F14", "C6F14"),
   ("Atmospheric Concentrations|F-Gases|PFC|C7F16", "C7F16"),
   ("Atmospheric Concentrations|F-Gases|PFC|C8F18", "C8F18"),
   ("Atmospheric Concentrations|F-Gases|PFC|cC4F8", "cC4F8"),
   ("Atmospheric Concentrations|F-Gases|PFC|CF4", "CF4"),
   ("Atmospheric Concentrations|F-Gases|SF6", "SF6"),
   ("Atmospheric Concentrations|F-Gases|SO2F2", "SO2F2"),
   ("Atmospheric Concentrations|Montreal Gases|CFC|CFC11", "CFC-11"),
   ("Atmospheric Concentrations|Montreal Gases|CFC|CFC12", "CFC-12"),
   ("Atmospheric Concentrations|Montreal Gases|CFC|CFC113", "CFC-113"),
   ("Atmospheric Concentrations|Montreal Gases|CFC|CFC114", "CFC-114"),
   ("Atmospheric Concentrations|Montreal Gases|CFC|CFC115", "CFC-115"),
   ("Atmospheric Concentrations|Montreal Gases|CH3Br", "CH3Br"),
   ("Atmospheric Concentrations|Montreal Gases|CCl4", "CCl4"),
   ("Atmospheric Concentrations|Montreal Gases|CH3CCl3", "CH3CCl3"),
   ("Atmospheric Concentrations|Montreal Gases|Halon1202", "H-1202"),
   ("Atmospheric Concentrations|Montreal Gases|Halon1211", "H-1211"),
   ("Atmospheric Concentrations|Montreal Gases|Halon1301", "H-1301"),
   ("Atmospheric Concentrations|Montreal Gases|Halon2402", "H-2402"),
   ("Atmospheric Concentrations|Montreal Gases|HCFC123", "HCFC-123"),
   ("Atmospheric Concentrations|Montreal Gases|HCFC142b", "HCFC-142b"),
   ("Atmospheric Concentrations|Montreal Gases|HCFC141b", "HCFC-141b"),
   ("Atmospheric Concentrations|Montreal Gases|HCFC22", "HCFC-22"),
   ("Atmospheric Concentrations|Montreal Gases|CHCl3", "CHCl3"),
   ("Atmospheric Concentrations|Montreal Gases|CH3Cl", "CH3Cl"),
   ("Atmospheric Concentrations|Montreal Gases|CH2Cl2", "CH2Cl2")]

/-- Forcings: variable and component. -/
def forcVariables : List (String × String) :=
  [("Effective Radiative Forcing|Anthropogenic", "Total_forcing"),
   ("Effective Radiative Forcing|Anthropogenic|CO2", "CO2"),
   ("Effective Radiative Forcing|Anthropogenic|CH4", "CH4"),
   ("Effective Radiative Forcing|Anthropogenic|N2O", "N2O"),
   ("Effective Radiative Forcing|Anthropogenic|Other|Stratospheric H2O", "STRAT_H2O"),
   ("Effective Radiative Forcing|Anthropogenic|Ozone|Stratospheric Contribution", "STRAT_O3"),
   ("Effective Radiative Forcing|Anthropogenic|Ozone|Tropospheric Contribution", "TROP_O3"),
   ("Effective Radiative Forcing|Anthropogenic|Aerosol|Aerosol-radiation Interactions|BC", "BC"),
   ("Effective Radiative Forcing|Anthropogenic|Aerosol|Aerosol-radiation Interactions|OC", "OC"),
   ("Effective Radiative Forcing|Anthropogenic|Aerosol|Aerosol-radiation Interactions|Sulfate", "SO4_DIR"),
   ("Effective Radiative Forcing|Anthropogenic|Aerosol|Aerosol-cloud Interactions", "SO4_IND"),
   ("Effective Radiative Forcing|Anthropogenic|F-Gases|HFC|HFC125", "HFC125"),
   ("Effective Radiative Forcing|Anthropogenic|F-Gases|HFC|HFC134a", "HFC134a"),
   ("Effective Radiative Forcing|Anthropogenic|F-Gases|HFC|HFC143a", "HFC143a"),
   ("Effective Radiative Forcing|Anthropogenic|F-Gases|HFC|HFC152a", "HFC152a"),
   ("Effective Radiative Forcing|Anthropogenic|F-Gases|HFC|HFC227ea", "HFC227ea"),
   ("Effective Radiative Forcing|Anthropogenic|F-Gases|HFC|HFC236fa", "HFC236fa"),
   ("Effective Radiative Forcing|Anthropogenic|F-Gases|HFC|HFC23", "HFC23"),
   ("Effective Radiative Forcing|Anthropogenic|F-Gases|HFC|HFC245fa", "HFC245fa"),
   ("Effective Radiative Forcing|Anthropogenic|F-Gases|HFC|HFC32", "HFC32"),
   ("Effective Radiative Forcing|Anthropogenic|F-Gases|HFC|HFC365mfc", "HFC365mfc"),
   ("Effective Radiative Forcing|Anthropogenic|F-Gases|HFC|HFC4310mee", "HFC4310mee"),
   ("Effective Radiative Forcing|Anthropogenic|F-Gases|NF3", "NF3"),
   ("Effective Radiative Forcing|Anthropogenic|F-Gases|PFC|C2F6", "C2F6"),
   ("Effective Radiative Forcing|Anthropogenic|F-Gases|PFC|C3F8", "C3F8"),
   ("Effective Radiative Forcing|Anthropogenic|F-Gases|PFC|C4F10", "C4F10"),
   ("Effective Radiative Forcing|Anthropogenic|F-Gases|PFC|C5F12", "C5F12"),
   ("Effective Radiative Forcing|Anthropogenic|F-Gases|PFC|C6F14", "C6F14"),
   ("Effective Radiative Forcing|Anthropogenic|F-Gases|PFC|C7F16", "C7F16"),
   ("Effective Radiative Forcing|Anthropogenic|F-Gases|PFC|C8F18", "C8F18"),
   ("Effective Radiative Forcing|Anthropogenic|F-Gases|PFC|cC4F8", "cC4F8"),
   ("Effective Radiative Forcing|Anthropogenic|F-Gases|PFC|CF4", "CF4"),
   ("Effective Radiative Forcing|Anthropogenic|F-Gases|SF6", "SF6"),
   ("Effective Radiative Forcing|Anthropogenic|F-Gases|SO2F2", "SO2F2"),
   ("Effective Radiative Forcing|Anthropogenic|Montreal Gases|CFC|CFC11", "CFC-11"),
   ("Effective Radiative Forcing|Anthropogenic|Montreal Gases|CFC|CFC12", "CFC-12"),
   ("Effective Radiative Forcing|Anthropogenic|Montreal Gases|CFC|CFC113", "CFC-113"),
   ("Effective Radiative Forcing|Anthropogenic|Montreal Gases|CFC|CFC114", "CFC-114"),
   ("Effective Radiative Forcing|Anthropogenic|Montreal Gases|CFC|CFC115", "CFC-115"),
   ("Effective Radiative Forcing|Anthropogenic|Montreal Gases|CH3Br", "CH3Br"),
   ("Effective Radiative Forcing|Anthropogenic|Montreal Gases|CCl4", "CCl4"),
   ("Effective Radiative Forcing|Anthropogenic|Montreal Gases|CH3CCl3", "CH3CCl3"),
   ("Effective Radiative Forcing|Anthropogenic|Montreal Gases|Halon1202", "H-1202"),
   ("Effective Radiative Forcing|Anthropogenic|Montreal Gases|Halon1211", "H-1211"),
   ("Effective Radiative Forcing|Anthropogenic|Montreal Gases|Halon1301", "H-1301"),
   ("Effective Radiative Forcing|Anthropogenic|Montreal Gases|Halon2402", "H-2402"),
   ("Effective Radiative Forcing|Anthropogenic|Montreal Gases|HCFC123", "HCFC-123"),
   ("Effective Radiative Forcing|Anthropogenic|Montreal Gases|HCFC142b", "HCFC-142b"),
   ("Effective Radiative Forcing|Anthropogenic|Montreal Gases|HCFC141b", "HCFC-141b"),
   ("Effective Radiative Forcing|Anthropogenic|Montreal Gases|HCFC22", "HCFC-22"),
   ("Effective Radiative Forcing|Anthropogenic|Montreal Gases|CHCl3", "CHCl3"),
   ("Effective Radiative Forcing|Anthropogenic|Montreal Gases|CH3Cl", "CH3Cl"),
   ("Effective Radiative Forcing|Anthropogenic|Montreal Gases|CH2Cl2", "CH2Cl2")]

end Verif.Spec
