import Verif.Lemmas.AgreeRun
import Verif.Props.C56
import Verif.Props.C40_C41_C57
import Verif.Exec.RatRun

/-!
# C16 — no look-ahead

Two model instances whose inputs agree up to year `y` (`Verif/Spec/LookAhead.lean`) give the same
results up to year `y`.
-/

namespace Verif.Props
open Verif.Py Verif.Model Verif.Model.Handler Verif.Model.Driver Verif.Spec

section
variable {F κ τ : Type} [Add F] [Sub F] [Mul F] [Div F] [Neg F] [OfScientific F] [LT F] [DecidableLT F]
  [MathFn F]

/-- The reference year in force is the one of the run's parameter set. -/
theorem ref_after_reset {cops : CarbonOps F κ} {h g : Handler F κ} {p q : Option (Dict (PyVal F))} {ref r : ℤ}
    (e : resetWithNewPams cops h p q = .ok g) (hp : pamI (Factory.checkPamset p) "ref_yr" = .ok ref)
    (hr : pamI g.pam "ref_yr" = .ok r) : r = ref := by
  obtain ⟨pam, c, h1, -, rfl⟩ := reset_spec e
  unfold pamI Dict.getE at hp hr
  simp only at hr
  rw [avoid_get? _ _ _ (by decide), consistency_get? h1, if_neg (by decide)] at hr
  cases hg : Dict.get? (Factory.checkPamset p) "ref_yr" with
  | none => rw [hg] at hp; simp [bind_error] at hp
  | some v =>
    rw [hg] at hp hr
    simp only [Option.some_or, bind_ok] at hp hr
    rw [hr, Except.ok.injEq] at hp
    exact hp

/-- C16 for emission and concentration runs: two instances built from inputs that agree up to year `y`
(and in the reference years), run with the same parameter sets, give for every run year `z ≤ y` the
same entry of every result series, and the same row of reported concentrations and of reported
forcings. -/
theorem C16_emission_run {cops : CarbonOps F κ} {tops : ThermalOps F τ} {d d' d1 d1' : Driver F κ}
    {i i' : Inputs F} {h h' : Handler F κ} {pamset carb : Option (Dict (PyVal F))} {p : RunPams F}
    {t t' : τ} {y ref es : ℤ}
    (hnd : (tops.outputs.map Prod.fst ++ forcOutputList).Nodup) (hgas : i.gas.keys.Nodup)
    (hi : InputsUpTo y ref i i') (hs : SeriesUpTo y d d')
    (hc : construct cops i pamset carb = .ok h) (hc' : construct cops i' pamset carb = .ok h')
    (hd : d.source = .handler h) (hd' : d'.source = .handler h')
    (htab : RunTables i.concIn i.emis
      (Dict.set (Factory.checkPamset pamset) "conc_run" (.bool i.concRun)) d.nystart es d.nyend)
    (href : pamI (Factory.checkPamset p.emiconc) "ref_yr" = .ok ref)
    (hr : run cops tops d p = .ok (d1, t)) (hr' : run cops tops d' p = .ok (d1', t')) :
    ∃ g g', d1.source = .handler g ∧ d1'.source = .handler g' ∧
    ∀ z, d.nystart ≤ z → z ≤ y → z ≤ d.nyend →
      (∀ o ∈ tops.outputs.map Prod.fst ++ forcOutputList,
        entry d1'.results o (z - d.nystart).toNat = entry d1.results o (z - d.nystart).toNat) ∧
      columnsAt (reportConc g') z = columnsAt (reportConc g) z ∧
      columnsAt (reportForcing g' d.nystart) z = columnsAt (reportForcing g d.nystart) z := by
  refine run_agree (E := EmisCell y ref) (K := ConcCell y ref) (fun _ => Eq) hnd hs.longer hd hd' rfl htab.nonempty ?_ hr hr'
  intro hy g g' hreset hreset'
  obtain ⟨a0, ap, akeys, ayears, ayears'⟩ := start_agree hi hgas hy htab hc hc' hreset hreset'
  refine ⟨a0, ap, akeys, ayears, by rw [hs.nyend]; exact ayears', concKeys_nodup hgas hc hreset, co2Unit_reset hreset, ?_, ?_, fun _ _ _ _ _ e => e⟩
  · refine ⟨fun a b hab hb => le_trans hab hb, fun _ _ h => Or.inl h, fun _ _ h => Or.inl h,
      fun t ht => Or.inr ⟨ht, Or.inl rfl⟩, ?_⟩
    intro r hrr
    have := ref_after_reset hreset href hrr
    subst this
    exact ⟨fun t ht => Or.inr ⟨ht, Or.inr rfl⟩, Or.inr ⟨rfl, rfl⟩⟩
  · rintro _ z k k' fb _ _ rfl
    exact stepTo_eq _

/-- C16 for prescribed forcing: two instances whose forcing, solar and volcanic series agree up to year
`y`, run with the same thermal parameters, give the same results for every run year up to `y`. -/
theorem C16_forcing_run {cops : CarbonOps F κ} {tops : ThermalOps F τ} {d d' d1 d1' : Driver F κ}
    {rf rf' : Forcing F} {p p' : RunPams F} {t t' : τ} {y : ℤ}
    (hnd : (tops.outputs.map Prod.fst ++ forcOutputList).Nodup)
    (hs : SeriesUpTo y d d') (hd : d.source = .forcing rf) (hd' : d'.source = .forcing rf')
    (hf : ForcingUpTo d.nystart y rf rf') (hudm : p'.udm = p.udm)
    (hr : run cops tops d p = .ok (d1, t)) (hr' : run cops tops d' p' = .ok (d1', t')) :
    ∀ z, d.nystart ≤ z → z ≤ y → z ≤ d.nyend →
      ∀ o ∈ tops.outputs.map Prod.fst ++ forcOutputList,
        entry d1'.results o (z - d.nystart).toNat = entry d1.results o (z - d.nystart).toNat := by
  refine forcingRun_longer hnd hs.longer hd hd' ?_ hudm hr hr'
  cases rf <;> cases rf' <;> first | exact hf | exact hf.elim | exact FrameAgree.upTo hf

end

/-! ## A pair of runs that meets the hypotheses

Emissions, concentrations, natural emissions, perturbations and series differ from 2004 on (`y = 2003`);
ozone precursors in 2010 (the reference year) are kept. The two runs give different results in 2004. -/

open Verif.Exec Verif.Model.ThermalInst

/-- The first input. -/
def lookInputs : Inputs ℚ :=
  toyInputs false risingEmis risingConc (some [⟨"SO2", 2001, 1⟩]) (some [⟨"CFC-11", 2002, 1⟩])

/-- The second input: everything after 2003 is different, except the reference year. -/
def lookInputs' : Inputs ℚ :=
  { toyInputs false (fun c y => if y ≤ 2003 ∨ y = 2010 then risingEmis c y else 77)
      (fun c y => if y ≤ 2003 ∨ y = 2010 then risingConc c y else 1000)
      (some [⟨"CO2", 2004, 5⟩, ⟨"SO2", 2001, 1⟩]) (some [⟨"CFC-11", 2002, 1⟩, ⟨"SO2", 2004, 3⟩]) with
    natCh4 := ⟨["CH4"], pyRange 2000 2012, fun _ y => if y ≤ 2003 then 200 else 300⟩ }

theorem look_inputs : InputsUpTo 2003 2010 lookInputs lookInputs' where
  gas := rfl
  concRun := rfl
  natCh4 := ⟨rfl, rfl, fun c _ z _ h => by simp only [lookInputs', lookInputs, toyInputs]; rw [if_pos h]⟩
  natN2o := ⟨rfl, rfl, fun _ _ _ _ _ => rfl⟩
  concIn := ⟨rfl, rfl, fun c _ z _ h => by
    simp only [lookInputs', lookInputs, toyInputs, toyConc]
    rw [if_pos (by rcases h with h | h; exacts [Or.inl h, Or.inr h.2])]⟩
  emis := ⟨rfl, rfl, fun c _ z _ h => by
    simp only [lookInputs', lookInputs, toyInputs, toyEmis]
    rw [if_pos (by rcases h with h | ⟨_, h | h⟩; exacts [Or.inl h, Or.inl (by omega), Or.inr h])]⟩
  pertEm := fun z hz => by
    simp only [lookInputs', lookInputs, toyInputs, rowsOf, Option.getD_some, List.filter_cons]
    rw [if_neg (by simp; omega)]
  pertEmRef := fun c hc z hz => by
    rcases hz with rfl | rfl <;> simp [lookInputs', lookInputs, toyInputs, rowsOf]
  pertForc := fun z hz => by
    simp only [lookInputs', lookInputs, toyInputs, rowsOf, Option.getD_some, List.filter_cons]
    rw [if_neg (c := decide ((2004 : ℤ) = z) = true) (by simp; omega)]

/-- Construction and run of both inputs succeed, and the results of 2004 differ. -/
theorem look_runs :
    (match construct toyCarbon lookInputs toyPam none, construct toyCarbon lookInputs' toyPam none with
     | .ok h, .ok h' =>
       (match run toyCarbon twoLayerOps (toyDriver h [0, 0, 0, 1, 1] [0, 1, 0, 0, 0]) ⟨none, none, none⟩,
          run toyCarbon twoLayerOps (toyDriver h' [0, 0, 0, 1, 2] [0, 1, 0, 0, 5]) ⟨none, none, none⟩ with
        | .ok r, .ok r' => decide (entry r.1.results "dT_glob" 3 = entry r'.1.results "dT_glob" 3 ∧
            entry r.1.results "dT_glob" 3 ≠ some 0 ∧
            entry r.1.results "dT_glob" 4 ≠ entry r'.1.results "dT_glob" 4)
        | _, _ => false)
     | _, _ => false) = true := by decide +kernel

/-- Every hypothesis of `C16_emission_run` is met by this pair. -/
example : ∃ h h' d1 d1' t t',
    construct toyCarbon lookInputs toyPam none = .ok h ∧
    construct toyCarbon lookInputs' toyPam none = .ok h' ∧
    run toyCarbon twoLayerOps (toyDriver h [0, 0, 0, 1, 1] [0, 1, 0, 0, 0]) ⟨none, none, none⟩ = .ok (d1, t) ∧
    run toyCarbon twoLayerOps (toyDriver h' [0, 0, 0, 1, 2] [0, 1, 0, 0, 5]) ⟨none, none, none⟩ = .ok (d1', t') ∧
    SeriesUpTo 2003 (toyDriver h [0, 0, 0, 1, 1] [0, 1, 0, 0, 0]) (toyDriver h' [0, 0, 0, 1, 2] [0, 1, 0, 0, 5]) ∧
    lookInputs.gas.keys.Nodup ∧
    ((twoLayerOps (F := ℚ)).outputs.map Prod.fst ++ forcOutputList).Nodup ∧
    RunTables lookInputs.concIn lookInputs.emis
      (Dict.set (Factory.checkPamset toyPam) "conc_run" (.bool lookInputs.concRun)) 2000 2002 2004 ∧
    pamI (Factory.checkPamset (F := ℚ) none) "ref_yr" = .ok 2010 := by
  have h0 := look_runs
  cases hc : construct toyCarbon lookInputs toyPam none with
  | error e => rw [hc] at h0; cases h0
  | ok h =>
    cases hc' : construct toyCarbon lookInputs' toyPam none with
    | error e => rw [hc, hc'] at h0; cases h0
    | ok h' =>
      rw [hc, hc'] at h0
      simp only at h0
      cases hr : run toyCarbon twoLayerOps (toyDriver h [0, 0, 0, 1, 1] [0, 1, 0, 0, 0]) ⟨none, none, none⟩ with
      | error e => rw [hr] at h0; cases h0
      | ok r =>
        cases hr' : run toyCarbon twoLayerOps (toyDriver h' [0, 0, 0, 1, 2] [0, 1, 0, 0, 5]) ⟨none, none, none⟩ with
        | error e => rw [hr, hr'] at h0; cases h0
        | ok r' =>
          have rows : ∀ (a b : ℚ) (c d : ℚ) (x y z : ℚ), RowsUpTo 2000 2003 [a, b, c, d, x] [a, b, c, d, y] := by
            intro a b c d x y z n hn
            have : n = 0 ∨ n = 1 ∨ n = 2 ∨ n = 3 := by omega
            rcases this with rfl | rfl | rfl | rfl <;> rfl
          refine ⟨h, h', r.1, r'.1, r.2, r'.2, rfl, rfl, hr, hr', ?_, by decide +kernel, by decide +kernel, ?_,
            by decide +kernel⟩
          · exact ⟨rfl, rfl, rfl, rows _ _ _ _ _ _ 0, rows _ _ _ _ _ _ 0, fun _ _ => rfl, fun _ _ => rfl⟩
          · exact ⟨by decide +kernel, by decide +kernel, by decide +kernel, ⟨2000, 2012, rfl, by omega, by omega⟩,
              ⟨2000, 2012, rfl, by omega, by omega⟩, by omega, fun _ => by omega⟩

/-- A pair of forcing runs that meets the hypotheses of `C16_forcing_run`. -/
example : ForcingUpTo 2000 2000 (.array [(1 : ℝ), 2]) (.array [1, 5]) := by
  intro n hn
  have : n = 0 := by omega
  subst this
  rfl

end Verif.Props
