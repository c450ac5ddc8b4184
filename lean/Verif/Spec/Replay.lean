import Verif.Model.Driver

/-!
# Replaying the forcing of a run

Small specification for C91: a driver whose forcing is prescribed, with the years, the solar and the volcanic series of
another driver.
-/

namespace Verif.Spec
open Verif.Py Verif.Model Verif.Model.Driver

/-- `d'` is driven by the prescribed forcing `rf` over the years of `d`, with the solar and volcanic series of `d`. -/
structure Replays {F κ κ' : Type} (d : Driver F κ) (rf : Forcing F) (d' : Driver F κ') : Prop where
  source : d'.source = .forcing rf
  first : d'.nystart = d.nystart
  last : d'.nyend = d.nyend
  sun : d'.sun = d.sun
  north : d'.volcN = d.volcN
  south : d'.volcS = d.volcS

/-- The two sets of results have the same series under each of the names. -/
def SameSeries {F : Type} (names : List String) (r r' : Dict (List F)) : Prop :=
  ∀ o ∈ names, r'.get? o = r.get? o

/-- The names of the solar and volcanic series of the results. -/
def naturalSeries : List String := ["Solar_forcing", "Volcanic_forcing_NH", "Volcanic_forcing_SH"]

end Verif.Spec
