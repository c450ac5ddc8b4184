import Verif.Spec.Diffusion
import Verif.Lemmas.Driver

/-!
# Specification: the energy budget of the diffusion model in the columns of the results
-/

namespace Verif.Spec
open Verif.Py Verif.Model Verif.Model.Driver
open Verif.Spec.Diffusion (capacity ohcUnit year)

/-- The number a series reports for the `i`-th year (zero if there is none). -/
noncomputable def now (r : Dict (List ℝ)) (o : String) (i : ℕ) : ℝ := (entry r o i).getD 0

/-- The number a series reports for the year before the `i`-th; zero before the first. -/
noncomputable def earlier (r : Dict (List ℝ)) (o : String) (i : ℕ) : ℝ := if i = 0 then 0 else now r o (i - 1)

/-- The heat flux (W/m², both hemispheres together) from the air into the ocean, from the reported air and sea surface
temperatures of the hemispheres. -/
noncomputable def airSeaFlux (q : UDM.Pams ℝ) (r : Dict (List ℝ)) (i : ℕ) : ℝ :=
  q.rlamdo * (q.foan * (now r "dT_NH_air" i - now r "dT_NH_sea" i) + q.foas * (now r "dT_SH_air" i - now r "dT_SHsea" i))

/-- The series the budget uses. -/
def budgetSeries : List String :=
  ["RIB_glob", "dT_glob", "dT_NH", "dT_SH", "dT_glob_air", "dT_NH_air", "dT_SH_air", "dT_glob_sea", "dT_NH_sea",
    "dT_SHsea", "OHCTOT"]

/-- The energy budget of the `i`-th year in the results `r` of a run with the diffusion model: forcing `F` of the year and
`Fp` of the year before (global means), volcanic forcing `V` (the two hemispheres' yearly means added), feedback `lam`.
Every series has a number for the year. The forcing applied, which rises linearly within the year, is used up by feedback and flux into the ocean; the heat
content grows by the flux; `RIB_glob` is the imbalance at the end of the year; the temperatures are means. -/
structure DiffusionBudget (q : UDM.Pams ℝ) (r : Dict (List ℝ)) (i : ℕ) (F Fp V lam : ℝ) : Prop where
  present : ∀ o ∈ budgetSeries, ∃ v, entry r o i = some v
  balance : (q.ldtime + 1) / q.ldtime * F + (q.ldtime - 1) / q.ldtime * Fp + V =
    lam * (now r "dT_NH_air" i + now r "dT_SH_air" i) + airSeaFlux q r i
  heat : q.ocean_efficacy = 1 → q.ebbeta = 0 →
    capacity * ((now r "OHCTOT" i - earlier r "OHCTOT" i) / ohcUnit) = year * airSeaFlux q r i
  imbalance : q.ocean_efficacy = 1 → now r "RIB_glob" i = F + V / 2 - lam * now r "dT_glob" i
  glob : now r "dT_glob" i = (now r "dT_NH" i + now r "dT_SH" i) / 2
  air : now r "dT_glob_air" i = (now r "dT_NH_air" i + now r "dT_SH_air" i) / 2
  sea : now r "dT_glob_sea" i = (now r "dT_NH_sea" i + now r "dT_SHsea" i) / 2
  north : now r "dT_NH" i = q.foan * now r "dT_NH_sea" i + (1 - q.foan) * now r "dT_NH_air" i
  south : now r "dT_SH" i = q.foas * now r "dT_SHsea" i + (1 - q.foas) * now r "dT_SH_air" i

/-- The volcanic rows of the two hemispheres for a year have the same length, which divides the number of sub-steps of a
year (one value per sub-step, or one for the year, say). -/
structure VolcanicRows (n : ℤ) (vn vs : List (List ℝ)) : Prop where
  alike : ∀ (i : ℕ) (a b : List ℝ), vn[i]? = some a → vs[i]? = some b → a.length = b.length
  divides : ∀ row ∈ vn, (row.length : ℤ) ∣ n

end Verif.Spec
