import Mathlib.Algebra.BigOperators.Group.Finset.Basic
import Mathlib.Data.Real.Basic
import Verif.Model.UDM

/-!
# Specification: the upwelling-diffusion ocean

The quantities the properties of the diffusion model talk about, written from the parameters and
outputs alone. The only things taken from the model are its parameter record, the record of a year's
inputs and the record of a year's outputs.
-/

namespace Verif.Spec.Diffusion
open Verif.Model.UDM (Pams Year Out)
open Finset (range)

/-- The feedback (W/m²/K) configured by the climate sensitivity and the aerosol coefficient, for an
aerosol weight `w`. -/
noncomputable def feedback (p : Pams ℝ) (w : ℝ) : ℝ := 1 / p.lambda + w * p.delta_lambda_aero

/-- Physically meaningful parameters. -/
structure Physical (p : Pams ℝ) : Prop where
  exchange : 0 < p.rlamdo
  north : 0 < p.foan
  south : 0 < p.foas
  between : 0 ≤ p.ebbeta
  mixed : 0 < p.mixed
  layers : 2 ≤ p.lm
  steps : 1 ≤ p.ldtime

/-- Layer thickness (m): the mixed layer on top, 100 m below it. -/
noncomputable def thickness (p : Pams ℝ) (i : ℕ) : ℝ := if i = 0 then p.mixed else 100

/-- Depth (m) of the top of layer `i`. -/
noncomputable def top (p : Pams ℝ) (i : ℕ) : ℝ := ∑ j ∈ range i, thickness p j

/-- The part (m) of layer `i` that lies above depth `d`. -/
noncomputable def above (p : Pams ℝ) (d : ℝ) (i : ℕ) : ℝ := max 0 (min (thickness p i) (d - top p i))

/-- Seconds in a year. -/
def year : ℝ := 365 * 86400

/-- Volumetric heat capacity (J/m³/K) the temperature equations use. -/
noncomputable def capacity : ℝ := 1.03 * 0.955 * 0.485 * 100 * 86400

/-- Heat content unit: 10²² J per K and metre of depth, for one hemisphere's area. -/
noncomputable def ohcUnit : ℝ := 1030 * 3.997e-19 * 2.55e14

/-- A quantity of the last year of a history, zero before the first year. -/
noncomputable def before {α : Type} (xs : List α) (f : α → ℝ) : ℝ := (xs.getLast?.map f).getD 0

/-- The mean over a year of the forcing that the `n` sub-steps apply: the ordinary forcing rises
linearly from `old` to `new`, the volcanic series is read cyclically (its period is the length of
the northern series). -/
noncomputable def meanForcing (n : ℕ) (old new : ℝ) (period : ℕ) (volc : List ℝ) : ℝ :=
  (∑ k ∈ range n, (((k + 1 : ℕ) : ℝ) / n * new + (1 - ((k + 1 : ℕ) : ℝ) / n) * old
    + volc.getD (k % period) 0)) / n

/-- Heat flux (W/m² of hemisphere, both hemispheres together) from the air into the ocean, from the
reported yearly mean air and sea surface temperatures. -/
noncomputable def uptake (p : Pams ℝ) (o : Out ℝ) : ℝ :=
  p.rlamdo * (p.foan * (o.dtempnh_air - o.dtempnh_sea) + p.foas * (o.dtempsh_air - o.dtempsh_sea))

/-- The upwelling rate (m/yr) at surface temperature `t`: it weakens with warming if a threshold
temperature is configured. -/
noncomputable def upwelling (p : Pams ℝ) (t : ℝ) : ℝ :=
  if p.threstemp = 0 then p.W else p.W * (1 - 0.3 * t / p.threstemp)

/-- Downward transport (K m/s) of temperature from layer `i` to the layer below it: diffusion, against an upwelling of
`w` m/yr. Diffusion out of the mixed layer is over half the distance, and water upwells into it with its own temperature. -/
noncomputable def down (p : Pams ℝ) (w : ℝ) (T : ℕ → ℝ) (i : ℕ) : ℝ :=
  if i + 1 < p.lm then
    if i = 0 then 1e-4 * p.akapa * (T 0 - T 1) / 50 - w / year * T 0
    else 1e-4 * p.akapa * (T i - T (i + 1)) / 100 - w / year * T (i + 1)
  else 0

/-- The temperatures `T` of a hemisphere's ocean below the mixed layer become `T'` in one sub-step with upwelling of `w` m/yr:
what comes from above minus what goes down, water sunk from the surface into the lowest layer, and exchange with the other
hemisphere's layer `S` (`r` is the ratio of the areas). -/
def DeepStep (p : Pams ℝ) (w r : ℝ) (T S T' : ℕ → ℝ) : Prop :=
  ∀ i, 1 ≤ i → i < p.lm → 100 * (T' i - T i) = year / p.ldtime *
    (down p w T' (i - 1) - down p w T' i + (if i = p.lm - 1 then p.cpi * (w / year) * T 0 else 0)
      + r * p.beto / capacity * (S i - T i))

/-- Upwelling rate `w` (m/yr) that is upward, weaker than diffusion over a 100 m layer, and does not
exchange the mixed layer within a sub-step. -/
structure Ordered (p : Pams ℝ) (w : ℝ) : Prop where
  upward : 0 ≤ w
  diffusive : w / year ≤ 2 * (1e-4 * p.akapa) / 100
  shallow : w / p.ldtime < p.mixed
  efficacy : 0 ≤ p.ocean_efficacy

/-- Polar sinking and exchange between the hemispheres move less than a layer's water per
sub-step. -/
structure Gentle (p : Pams ℝ) (w : ℝ) : Prop where
  sinking : 0 ≤ p.cpi
  exchange : 0 ≤ p.beto
  topNorth : p.cpi * (w / p.ldtime) / p.mixed
    + p.beto * (year / p.ldtime) / (capacity * p.mixed) ≤ 1
  topSouth : p.cpi * (w / p.ldtime) / p.mixed
    + p.foan / p.foas * p.beto * (year / p.ldtime) / (capacity * p.mixed) ≤ 1
  deepNorth : p.beto * (year / p.ldtime) / (capacity * 100) ≤ 1
  deepSouth : p.foan / p.foas * p.beto * (year / p.ldtime) / (capacity * 100) ≤ 1

/-- Feedback `f` strong enough for forcing up to `b` to keep temperatures below `t`, at an upwelling
rate `w`: what the feedback leaves over after balancing the forcing exceeds the heat that upwelling
brings to the surface. -/
structure Damped (p : Pams ℝ) (f b t w : ℝ) : Prop where
  ordered : Ordered p w
  gentle : Gentle p w
  sinking : p.cpi ≤ 1
  oceanNorth : p.foan ≤ 1
  oceanSouth : p.foas ≤ 1
  north : (1 - p.cpi) * capacity * (w / year)
    ≤ (f - b / t) * p.rlamdo / (p.foan * p.rlamdo + f + p.ebbeta)
  south : (1 - p.cpi) * capacity * (w / year)
    ≤ (f - b / t) * p.rlamdo / (p.foas * p.rlamdo + f + p.ebbeta)

/-- Feedback `f` that dominates the heat upwelling brings to the surface, at an upwelling rate `w`:
for every forcing there is a temperature that it keeps the ocean below. -/
structure Stable (p : Pams ℝ) (f w : ℝ) : Prop where
  ordered : Ordered p w
  gentle : Gentle p w
  sinking : p.cpi ≤ 1
  oceanNorth : p.foan ≤ 1
  oceanSouth : p.foas ≤ 1
  north : (1 - p.cpi) * capacity * (w / year) < f * p.rlamdo / (p.foan * p.rlamdo + f + p.ebbeta)
  south : (1 - p.cpi) * capacity * (w / year) < f * p.rlamdo / (p.foas * p.rlamdo + f + p.ebbeta)

/-- A year whose ordinary forcing is at most `b` and whose volcanic forcing is at most `v`, in
absolute value. -/
structure Within (b v : ℝ) (y : Year ℝ) : Prop where
  north : |y.fn| ≤ b
  south : |y.fs| ≤ b
  volcNorth : ∀ x ∈ y.vn, |x| ≤ v
  volcSouth : ∀ x ∈ y.vs, |x| ≤ v

/-- A year without any forcing. -/
structure NoForcing (y : Year ℝ) : Prop where
  north : y.fn = 0
  south : y.fs = 0
  volcNorth : ∀ x ∈ y.vn, x = 0
  volcSouth : ∀ x ∈ y.vs, x = 0

end Verif.Spec.Diffusion
