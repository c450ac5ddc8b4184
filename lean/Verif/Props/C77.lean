import Verif.Lemmas.ResultTables
import Verif.Lemmas.Asked
import Verif.Props.C67_C68
import Verif.Props.C72
import Verif.Props.C73
import Verif.Spec.Variables
import Verif.Props.C71

/-!
# C77: what a request for a result variable returns after a run

`runResults` (Verif/Model/Results.lean) makes the result tables of a finished run; `getVariable` (Verif/Model/Reader.lean)
answers a request from them. The columns of the tables are those of `reportEmis`, `reportConc` and `reportForcing`, which the
other theorems about runs (C06, C12, C59, C62, C71, …) speak about. `Verif/Spec/Variables.lean` lists the variables.
-/

namespace Verif.Props
open Verif.Py Verif.Py.Dict Verif.Model Verif.Model.Handler Verif.Model.Driver Verif.Model.Results Verif.Model.Reader
open Verif.Model.CarbonOut Verif.Model.CarbonInst Verif.Spec Verif.Lemmas.ReaderCodes

section
variable {κ τ : Type}

/-! ## The tables -/

/-- The columns of the table of forcings computed ahead. -/
theorem erf_cols_eq {gas : Dict (Gas ℝ)} {concIn emis : Frame ℝ} {pam : Dict (PyVal ℝ)}
    {pert : Option (List (PertRow ℝ))} {years : List ℤ} {cl br : Dict Int} {p : Precalc ℝ}
    (hn : gas.keys.Nodup) (h : precalculate gas concIn emis pam pert years cl br = .ok p) :
    p.erf.cols.Nodup ∧ ∀ c ∈ p.erf.cols, c ∈ p.gases ∧ c ∈ gas.keys ∨ c = "STRAT_O3" := by
  unfold precalculate at h
  simp only [bind_eq_ok] at h
  obtain ⟨gases, hg, conc, hconc, erf0, herf, so3, hso3, strat, hstrat, rows, hadd, erf, hpert, hp⟩ := h
  rw [pure_ok, Except.ok.injEq] at hp
  subst hp
  have hgn : gases.Nodup := by
    unfold vanillaGases at hg
    split at hg
    · rw [Except.ok.injEq] at hg
      rw [← hg]
      exact List.Nodup.sublist (List.Sublist.map _ List.filter_sublist) hn
    · cases hg
  have hcn : (if "STRAT_O3" ∈ gases then gases else gases ++ ["STRAT_O3"]).Nodup := by
    split
    · exact hgn
    · rename_i hs
      rw [List.nodup_append]
      refine ⟨hgn, by simp, ?_⟩
      intro x hx z hz e
      simp only [List.mem_cons, List.not_mem_nil, or_false] at hz
      subst e; subst hz
      exact hs hx
  have hc := (vanilla_ok (t := rowsTable _ rows) hcn hpert).1
  have hc' : erf.cols = if "STRAT_O3" ∈ gases then gases else gases ++ ["STRAT_O3"] := hc
  simp only
  refine ⟨by rw [hc']; exact hcn, ?_⟩
  intro c hcm
  rw [hc'] at hcm
  have hsub : ∀ g ∈ gases, g ∈ gas.keys := by
    intro g hgm
    obtain ⟨x, hx, -⟩ := (mem_vanilla hn hg g).1 hgm
    exact (get?_isSome_iff _ _).1 ⟨x, hx⟩
  split at hcm
  · exact Or.inl ⟨hcm, hsub c hcm⟩
  · rcases List.mem_append.1 hcm with hm | hm
    · exact Or.inl ⟨hm, hsub c hm⟩
    · exact Or.inr (by simpa using hm)

/-- No two forcing columns have the same name. -/
theorem reportForcing_nodup {cops : CarbonOps ℝ κ} {tops : ThermalOps ℝ τ} {d0 d d1 : Driver ℝ κ}
    {i : Inputs ℝ} {pamset carb : Option (Dict (PyVal ℝ))} {h0 g : Handler ℝ κ} {es : ℤ}
    {ps : List (RunPams ℝ)} {p : RunPams ℝ} {t : τ} (hgas : i.gas.keys.Nodup)
    (hTg : "Total_forcing" ∉ i.gas.keys) (hSg : "SO4_DIR" ∉ i.gas.keys)
    (ht : RunTables i.concIn i.emis (Dict.set (Factory.checkPamset pamset) "conc_run" (.bool i.concRun))
      d0.nystart es d0.nyend)
    (hc : construct cops i pamset carb = .ok h0) (hd0 : d0.source = .handler h0)
    (ha : After cops tops d0 ps d) (hr : run cops tops d p = .ok (d1, t)) (hg : d1.source = .handler g) (y0 : ℤ) :
    ((reportForcing g y0).map Prod.fst).Nodup := by
  obtain ⟨emis, a, b, c, fb, luc, sun, r, Y, -⟩ :=
    run_year yearLaw_real ht hc hd0 ha hr hg (le_refl _) ht.nonempty
  obtain ⟨k1, -⟩ := run_forcing hgas hTg ht hc Y (le_refl _) ht.nonempty
  obtain ⟨emis', cl, br, he, ht2, hpre, hcg, hci, hce, hcp, hcy⟩ := constructed hc ht
  obtain ⟨hvg, -, hsp⟩ := mem_spicy hpre
  obtain ⟨e1, e2⟩ := erf_cols_eq hgas hpre
  have hgp : g.prec = h0.prec := by rw [Y.sameG.prec, Y.sameC.prec, Y.sameB.prec, Y.prec]
  have hgf : g.forcKeys = b.forcKeys := by rw [Y.sameG.forcKeys, Y.sameC.forcKeys]
  have hfk : b.forcKeys = forcKeysOf h0.prec.spicy := by rw [Y.sameB.forcKeys, Y.forcKeys]
  have hmem : ∀ k ∈ g.forcKeys, k ∈ i.gas.keys ∧ k ∉ h0.prec.gases ∧ k ≠ "STRAT_O3" ∨ k = "Total_forcing" := by
    intro k hk
    rw [hgf, hfk] at hk
    have : k ∈ h0.prec.spicy ∨ k = "Total_forcing" := by
      unfold forcKeysOf at hk
      simp only at hk
      split at hk
      · exact Or.inl (List.mem_filter.1 hk).1
      · rcases List.mem_append.1 hk with h | h
        · exact Or.inl (List.mem_filter.1 h).1
        · exact Or.inr (by simpa using h)
    rcases this with h | h
    · left
      rw [hsp] at h
      obtain ⟨h1, h2⟩ := List.mem_filter.1 h
      simp only [decide_eq_true_eq] at h2
      exact ⟨h1, h2⟩
    · exact Or.inr h
  have hno : ∀ k, k ∈ g.forcKeys ++ h0.prec.erf.cols → k ≠ "SO4_DIR" := by
    rintro k hk rfl
    rcases List.mem_append.1 hk with h | h
    · rcases hmem _ h with h | h
      · exact hSg h.1
      · exact absurd h (by decide)
    · rcases e2 _ h with h | h
      · exact hSg h.2
      · exact absurd h (by decide)
  have hall : (g.forcKeys ++ h0.prec.erf.cols).Nodup := by
    rw [List.nodup_append]
    refine ⟨by rw [hgf]; exact k1, e1, ?_⟩
    rintro x hx z hz rfl
    rcases hmem _ hx with h | h
    · rcases e2 _ hz with h' | h'
      · exact h.2.1 h'.1
      · exact h.2.2 h'
    · subst h
      rcases e2 _ hz with h' | h'
      · exact hTg h'.2
      · exact absurd h' (by decide)
  have hnames : (reportForcing g y0).map Prod.fst = (g.forcKeys ++ h0.prec.erf.cols).map reportName := by
    unfold reportForcing
    rw [List.map_append, List.map_map, List.map_map, List.map_append, hgp]
    rfl
  rw [hnames]
  refine List.Nodup.map_on ?_ hall
  intro x hx z hz e
  rw [reportName_eq] at e
  unfold columnName at e
  split at e <;> split at e
  · rename_i h1 h2; rw [h1, h2]
  · exact absurd e.symm (hno z hz)
  · exact absurd e (hno x hx)
  · exact e

/-- C77: the result tables of a run can always be made (also after any history): whenever the request for the carbon cycle
table succeeds or is not made (see C72, C73), there is a table of emissions, one of concentrations and one of forcings, each
with one row for each run year and a value in every cell, and the yearly series are those of the run. For an emission table
that begins with the start year, with the two CO2 columns. -/
theorem C77_tables {cops : CarbonOps ℝ κ} {oops : OutputOps ℝ κ} {tops : ThermalOps ℝ τ} {d0 d d1 d2 : Driver ℝ κ}
    {i : Inputs ℝ} {pamset carb : Option (Dict (PyVal ℝ))} {h0 g : Handler ℝ κ} {es : ℤ}
    {ps : List (RunPams ℝ)} {p : RunPams ℝ} {t : τ} (hgas : i.gas.keys.Nodup)
    (hTg : "Total_forcing" ∉ i.gas.keys) (hout : (tops.outputs.map Prod.fst ++ forcOutputList).Nodup)
    (ht : RunTables i.concIn i.emis (Dict.set (Factory.checkPamset pamset) "conc_run" (.bool i.concRun))
      d0.nystart es d0.nyend)
    (hc : construct cops i pamset carb = .ok h0) (hd0 : d0.source = .handler h0)
    (ha : After cops tops d0 ps d) (hr : run cops tops d p = .ok (d1, t)) (hg : d1.source = .handler g)
    (hj : NoJustOne pamset ps p) {l : ℤ} (hidx : i.emis.idx = pyRange d0.nystart l) (hl : d0.nyend < l)
    (hff : "CO2_FF" ∈ i.emis.cols) (hlu : "CO2_AFOLU" ∈ i.emis.cols)
    {asked : Bool} {tab : Option (List (Column ℝ))} (hcarb : carbonTable oops tops d1 asked = .ok (tab, d2)) :
    ∃ r, runResults oops tops d1 asked = .ok (r, d2) ∧ r.series = d1.results ∧
      ∀ n ∈ ["emissions", "concentrations", "forcing"], ∃ f : Df ℝ, r.tables.get? n = some f ∧
        f.years = pyRange d0.nystart (d0.nyend + 1) ∧ Square f := by
  have hle := ht.nonempty
  obtain ⟨hy, -⟩ := run_emis ht hc hd0 ha hr hg
  obtain ⟨em, hem, hnam, hcell⟩ := C62_columns ht hc hd0 ha hr hg hidx hl hff hlu
  have hy0 : g.y0 = .ok d0.nystart := y0_pyRange hy (by omega)
  obtain ⟨tf, htf⟩ := frameOver_ok (years := g.years) (cols := reportForcing g d0.nystart) (by
    intro c hcm y hym
    rw [hy, mem_pyRange] at hym
    have := (C06_run hgas hTg hout ht hc hd0 ha hr hg hj (y := y) (by omega) (by omega)).1 c hcm
    exact Option.isSome_iff_exists.1 this)
  obtain ⟨te, hte⟩ := frameOver_ok (years := g.years) (cols := em) (by
    intro c hcm y hym
    rw [hy, mem_pyRange] at hym
    rw [hcell c hcm, if_pos (by omega)]
    exact ⟨_, rfl⟩)
  obtain ⟨tc, htc⟩ := frameOver_ok (years := g.years) (cols := reportConc g) (by
    intro c hcm y hym
    rw [hy, mem_pyRange] at hym
    exact reportConc_filled yearLaw_real ht hc hd0 ha hr hg c hcm y (by omega) (by omega))
  have hsq : ∀ {cols : List (String × (ℤ → Option ℝ))} {f : Df ℝ}, frameOver g.years cols = .ok f →
      f.years = pyRange d0.nystart (d0.nyend + 1) ∧ Square f := by
    intro cols f hf
    obtain ⟨f1, -, f3, -⟩ := frameOver_spec hf
    refine ⟨f1.trans hy, ?_⟩
    intro c xs hx
    obtain ⟨_, _, _, e⟩ := f3 c xs hx
    have := congrArg List.length e
    rw [List.length_map, List.length_map] at this
    rw [f1, this]
  unfold runResults
  rw [hg]
  simp only
  rw [hcarb, bind_ok, hy0, bind_ok, htf, bind_ok, hem, bind_ok, hte, bind_ok, htc, bind_ok]
  cases tab with
  | none =>
    refine ⟨_, rfl, rfl, ?_⟩
    intro n hn
    simp only [List.mem_cons, List.not_mem_nil, or_false] at hn
    rcases hn with rfl | rfl | rfl
    · exact ⟨te, by simp [Dict.get?], hsq hte⟩
    · exact ⟨tc, by simp [Dict.get?], hsq htc⟩
    · exact ⟨tf, by simp [Dict.get?], hsq htf⟩
  | some x =>
    refine ⟨_, rfl, rfl, ?_⟩
    intro n hn
    simp only [List.mem_cons, List.not_mem_nil, or_false] at hn
    rcases hn with rfl | rfl | rfl
    · exact ⟨te, by simp [Dict.get?], hsq hte⟩
    · exact ⟨tc, by simp [Dict.get?], hsq htc⟩
    · exact ⟨tf, by simp [Dict.get?], hsq htf⟩

/-- What the results of a run are made of. -/
theorem runResults_spec {oops : OutputOps ℝ κ} {tops : ThermalOps ℝ τ} {d1 d2 : Driver ℝ κ} {g : Handler ℝ κ}
    {asked : Bool} {r : Results ℝ} (hg : d1.source = .handler g) (h : runResults oops tops d1 asked = .ok (r, d2)) :
    ∃ tab y0 em tf te tc, carbonTable oops tops d1 asked = .ok (tab, d2) ∧ g.y0 = .ok y0 ∧ reportEmis g = .ok em ∧
      frameOver g.years (reportForcing g y0) = .ok tf ∧ frameOver g.years em = .ok te ∧
      frameOver g.years (reportConc g) = .ok tc ∧ r.series = d1.results ∧
      r.tables.get? "forcing" = some tf ∧ r.tables.get? "emissions" = some te ∧
      r.tables.get? "concentrations" = some tc ∧
      r.tables.get? "carbon cycle" = tab.map (carbonFrame g.years) := by
  unfold runResults at h
  rw [hg] at h
  simp only [bind_eq_ok] at h
  obtain ⟨⟨tab, d'⟩, h1, y0, h2, tf, h3, em, h4, te, h5, tc, h6, h⟩ := h
  refine ⟨tab, y0, em, tf, te, tc, ?_, h2, h4, h3, h5, h6, ?_⟩
  · cases tab <;> simp only [pure_ok, Except.ok.injEq, Prod.mk.injEq] at h <;> rw [h1, h.2]
  · cases tab <;> simp only [pure_ok, Except.ok.injEq, Prod.mk.injEq] at h <;> obtain ⟨rfl, -⟩ := h <;>
      simp [Dict.get?]

theorem series_at {ns ne : ℤ} {f : ℤ → Option ℝ} {vs : List ℝ}
    (h : (pyRange ns (ne + 1)).map f = vs.map some) : vs.length = (ne + 1 - ns).toNat ∧
      ∀ y, ns ≤ y → y ≤ ne → f y = some (vs.getD (y - ns).toNat 0) := by
  have hl := congrArg List.length h
  rw [List.length_map, List.length_map, pyRange_length] at hl
  refine ⟨hl.symm, ?_⟩
  intro y h1 h2
  have := congrArg (fun l => l[(y - ns).toNat]?) h
  simp only [List.getElem?_map] at this
  have hrng : (pyRange ns (ne + 1))[(y - ns).toNat]? = some y := by
    unfold pyRange
    rw [List.getElem?_map, List.getElem?_range (by omega), Option.map_some, Option.some.injEq]
    omega
  rw [hrng] at this
  rw [List.getElem?_eq_getElem (by omega : (y - ns).toNat < vs.length)] at this
  rw [List.getD_eq_getElem?_getD, List.getElem?_eq_getElem (by omega : (y - ns).toNat < vs.length)]
  simpa using this

/-! ## Requests -/

theorem conc_request {r : Results ℝ} {years : List ℤ} {w : Units} {v k u : String} {t : Df ℝ}
    (h1 : inStr "Concentration" v = true) (h2 : variableDict.get? v = some k)
    (ht : r.tables.get? "concentrations" = some t) (hu : unitOf w.components w.concunits k = .ok u) :
    getVariable r years v w = match t.cols.get? k with
      | some vs => .ok ⟨t.years, vs, u⟩
      | none => .error .keyError := by
  have htE : Dict.getE r.tables "concentrations" = .ok t := by unfold Dict.getE; rw [ht]
  unfold getVariable
  rw [h1, if_pos rfl, h2]
  unfold fromConc
  simp only [htE, bind_ok]
  unfold Dict.getE
  cases t.cols.get? k with
  | none => rfl
  | some vs => simp only [bind_ok, pure_ok, hu]

theorem em_request {r : Results ℝ} {years : List ℤ} {w : Units} {v k u : String} {t c : Df ℝ}
    (h0 : inStr "Concentration" v = false) (h1 : inStr "Emissions" v = true) (h2 : variableDict.get? v = some k)
    (ht : r.tables.get? "emissions" = some t) (htc : r.tables.get? "carbon cycle" = some c)
    (hu : unitOf w.components w.units k = .ok u) :
    getVariable r years v w = match (if k = "CO2" then c.cols.get? "Emissions" else none).or (t.cols.get? k) with
      | some vs => .ok ⟨t.years, vs, u⟩
      | none => .error .keyError := by
  have htE : Dict.getE r.tables "emissions" = .ok t := by unfold Dict.getE; rw [ht]
  have htC : Dict.getE r.tables "carbon cycle" = .ok c := by unfold Dict.getE; rw [htc]
  unfold getVariable
  rw [h0, if_neg (by decide), h1, if_pos rfl, h2]
  unfold fromEm
  simp only [htE, htC, bind_ok]
  cases hE : c.cols.get? "Emissions" with
  | none =>
    simp only [ite_self, Option.none_or]
    unfold Dict.getE
    cases t.cols.get? k with
    | none => rfl
    | some vs => simp only [bind_ok, pure_ok, hu]
  | some em =>
    by_cases hk : k = "CO2"
    · simp only [if_pos hk, pure_ok, bind_ok, hu, Option.some_or]
    · simp only [if_neg hk, Option.none_or]
      unfold Dict.getE
      cases t.cols.get? k with
      | none => rfl
      | some vs => simp only [bind_ok, pure_ok, hu]

theorem forc_request {r : Results ℝ} {years : List Int} {w : Units} {v c : String} {t : Df ℝ} (hv : plainForcing v = true)
    (hc : variableDict.get? v = some c) (ht : r.tables.get? "forcing" = some t) :
    getVariable r years v w = match t.cols.get? c with
      | some vs => .ok ⟨t.years, vs, "W/m^2"⟩
      | none => .error .keyError := by
  unfold plainForcing at hv
  simp only [Bool.and_eq_true, Bool.not_eq_true', hc, decide_eq_true_eq] at hv
  obtain ⟨⟨⟨h1, h2⟩, h3⟩, h4, h5, h6, h7⟩ := hv
  have htE : Dict.getE r.tables "forcing" = .ok t := by unfold Dict.getE; rw [ht]
  unfold getVariable
  rw [h1, h2, h3, hc]
  simp only [Bool.false_eq_true, if_false, if_true]
  unfold fromForc
  rw [htE]
  simp only [bind_ok, if_neg h7]
  unfold forcCommon
  simp only [if_neg h4, if_neg h5, if_neg h6, if_neg h7]
  unfold Dict.getE
  cases t.cols.get? c with
  | none => rfl
  | some xs => simp only [bind_ok, pure_ok]

theorem concVariables_names : ∀ v ∈ concVariables, inStr "Concentration" v.1 = true ∧ variableDict.get? v.1 = some v.2 := by
  intro v hv
  simp only [concVariables, List.mem_cons, List.not_mem_nil, or_false] at hv
  repeat' (first
    | (rcases hv with rfl | hv; · exact ⟨(inStr_lit _ _).trans (by decide +kernel), vd_lit (by decide +kernel)⟩))

theorem forcVariables_names : ∀ v ∈ forcVariables, plainForcing v.1 = true ∧ variableDict.get? v.1 = some v.2 := by
  intro v hv
  simp only [forcVariables, List.mem_cons, List.not_mem_nil, or_false] at hv
  repeat' (first
    | (rcases hv with rfl | hv; · exact ⟨plain_lit (by decide +kernel), vd_lit (by decide +kernel)⟩))


/-- C77, concentrations: after every run, a request for the concentration of a gas (named as in the list of variables) that
is in the gas table returns exactly the concentrations of the run: one value for each run year, in order, with the unit of the
gas table. -/
theorem C77_concentrations {cops : CarbonOps ℝ κ} {oops : OutputOps ℝ κ} {tops : ThermalOps ℝ τ}
    {d0 d d1 d2 : Driver ℝ κ} {i : Inputs ℝ} {pamset carb : Option (Dict (PyVal ℝ))} {h0 g : Handler ℝ κ} {es : ℤ}
    {ps : List (RunPams ℝ)} {p : RunPams ℝ} {t : τ} (hgas : i.gas.keys.Nodup)
    (ht : RunTables i.concIn i.emis (Dict.set (Factory.checkPamset pamset) "conc_run" (.bool i.concRun))
      d0.nystart es d0.nyend)
    (hc : construct cops i pamset carb = .ok h0) (hd0 : d0.source = .handler h0)
    (ha : After cops tops d0 ps d) (hr : run cops tops d p = .ok (d1, t)) (hg : d1.source = .handler g)
    {asked : Bool} {r : Results ℝ} (hres : runResults oops tops d1 asked = .ok (r, d2))
    (years : List ℤ) {w : Units} {v k u : String} (hv : (v, k) ∈ concVariables)
    (hu : unitOf w.components w.concunits k = .ok u) :
    (∀ c ∈ reportConc g, c.1 = k → ∃ s, getVariable r years v w = .ok ⟨pyRange d0.nystart (d0.nyend + 1), s, u⟩ ∧
      s.length = (d0.nyend + 1 - d0.nystart).toNat ∧
      ∀ y, d0.nystart ≤ y → y ≤ d0.nyend → c.2 y = some (s.getD (y - d0.nystart).toNat 0)) ∧
    (k ∉ (reportConc g).map Prod.fst → getVariable r years v w = .error .keyError) := by
  obtain ⟨tab, y0, em, tf, te, tc, -, -, -, -, -, htc, -, -, -, hrt, -⟩ := runResults_spec hg hres
  obtain ⟨hy, -⟩ := run_emis ht hc hd0 ha hr hg
  obtain ⟨n1, n2⟩ := concVariables_names _ hv
  obtain ⟨f1, f2, f3, f4⟩ := frameOver_spec htc
  rw [conc_request n1 n2 hrt hu]
  constructor
  · rintro c hcm rfl
    obtain ⟨emis, a, b, c', fb, luc, sun, r', Y, -⟩ :=
      run_year yearLaw_real ht hc hd0 ha hr hg (le_refl _) ht.nonempty
    have hnd : ((reportConc g).map Prod.fst).Nodup := by
      unfold reportConc
      rw [List.map_map]
      have : (Prod.fst ∘ fun k : String => (k, fun y : ℤ => if y ∈ g.years then
          if k ∈ g.concKeys then g.conc k y else (g.prec.conc.lookup y).map (fun r => r k) else none)) = id := rfl
      rw [this, List.map_id, Y.keysG]
      exact hgas.filter _
    obtain ⟨vs, h1, h2⟩ := f4 hnd c hcm
    simp only
    rw [h1, f1, hy]
    rw [hy] at h2
    exact ⟨vs, rfl, series_at h2⟩
  · intro hk
    rw [← f2, ← get?_eq_none_iff] at hk
    simp only
    rw [hk]

/-- C77, forcings: after every run, a request for the forcing of a component (named as in the list of variables) returns
exactly the forcing column of that component: one value for each run year, in order, in W/m². -/
theorem C77_forcings {cops : CarbonOps ℝ κ} {oops : OutputOps ℝ κ} {tops : ThermalOps ℝ τ}
    {d0 d d1 d2 : Driver ℝ κ} {i : Inputs ℝ} {pamset carb : Option (Dict (PyVal ℝ))} {h0 g : Handler ℝ κ} {es : ℤ}
    {ps : List (RunPams ℝ)} {p : RunPams ℝ} {t : τ} (hgas : i.gas.keys.Nodup)
    (hTg : "Total_forcing" ∉ i.gas.keys) (hSg : "SO4_DIR" ∉ i.gas.keys)
    (ht : RunTables i.concIn i.emis (Dict.set (Factory.checkPamset pamset) "conc_run" (.bool i.concRun))
      d0.nystart es d0.nyend)
    (hc : construct cops i pamset carb = .ok h0) (hd0 : d0.source = .handler h0)
    (ha : After cops tops d0 ps d) (hr : run cops tops d p = .ok (d1, t)) (hg : d1.source = .handler g)
    {asked : Bool} {r : Results ℝ} (hres : runResults oops tops d1 asked = .ok (r, d2))
    (years : List ℤ) (w : Units) {v k : String} (hv : (v, k) ∈ forcVariables) :
    (∀ c ∈ reportForcing g d0.nystart, c.1 = k → ∃ s,
      getVariable r years v w = .ok ⟨pyRange d0.nystart (d0.nyend + 1), s, "W/m^2"⟩ ∧
      s.length = (d0.nyend + 1 - d0.nystart).toNat ∧
      ∀ y, d0.nystart ≤ y → y ≤ d0.nyend → c.2 y = some (s.getD (y - d0.nystart).toNat 0)) ∧
    (k ∉ (reportForcing g d0.nystart).map Prod.fst → getVariable r years v w = .error .keyError) := by
  have hle := ht.nonempty
  obtain ⟨tab, y0, em, tf, te, tc, -, hy0, -, htf, -, -, -, hrt, -⟩ := runResults_spec hg hres
  obtain ⟨hy, -⟩ := run_emis ht hc hd0 ha hr hg
  rw [y0_pyRange hy (by omega), Except.ok.injEq] at hy0
  subst hy0
  obtain ⟨n1, n2⟩ := forcVariables_names _ hv
  obtain ⟨f1, f2, f3, f4⟩ := frameOver_spec htf
  rw [forc_request n1 n2 hrt]
  constructor
  · rintro c hcm rfl
    obtain ⟨vs, h1, h2⟩ := f4 (reportForcing_nodup hgas hTg hSg ht hc hd0 ha hr hg _) c hcm
    simp only
    rw [h1, f1, hy]
    rw [hy] at h2
    exact ⟨vs, rfl, series_at h2⟩
  · intro hk
    rw [← f2, ← get?_eq_none_iff] at hk
    simp only
    rw [hk]

/-- The emissions a request finds: those of the carbon cycle table for CO2 if it has any, else those of the emission table. -/
theorem emissions_found {cops : CarbonOps ℝ κ} {oops : OutputOps ℝ κ} {tops : ThermalOps ℝ τ}
    {d0 d d1 d2 : Driver ℝ κ} {i : Inputs ℝ} {pamset carb : Option (Dict (PyVal ℝ))} {h0 g : Handler ℝ κ} {es : ℤ}
    {ps : List (RunPams ℝ)} {p : RunPams ℝ} {t : τ}
    (ht : RunTables i.concIn i.emis (Dict.set (Factory.checkPamset pamset) "conc_run" (.bool i.concRun))
      d0.nystart es d0.nyend)
    (hc : construct cops i pamset carb = .ok h0) (hd0 : d0.source = .handler h0)
    (ha : After cops tops d0 ps d) (hr : run cops tops d p = .ok (d1, t)) (hg : d1.source = .handler g)
    {l : ℤ} (hidx : i.emis.idx = pyRange d0.nystart l) (hl : d0.nyend < l)
    (hff : "CO2_FF" ∈ i.emis.cols) (hlu : "CO2_AFOLU" ∈ i.emis.cols)
    {tab : List (Column ℝ)} (hcarb : carbonTable oops tops d1 true = .ok (some tab, d2))
    {r : Results ℝ} (hres : runResults oops tops d1 true = .ok (r, d2))
    (years : List ℤ) {w : Units} {v k u : String} (h0' : inStr "Concentration" v = false) (h1 : inStr "Emissions" v = true)
    (h2 : variableDict.get? v = some k) (hu : unitOf w.components w.units k = .ok u)
    (hk : k = "CO2" ∨ k ∈ i.emis.cols ∧ k ≠ "CO2_FF" ∧ k ≠ "CO2_AFOLU")
    (hno : k = "CO2" → (carbonFrame g.years tab).cols.get? "Emissions" = none) :
    ∃ s, getVariable r years v w = .ok ⟨pyRange d0.nystart (d0.nyend + 1), s, u⟩ ∧
      s.length = (d0.nyend + 1 - d0.nystart).toNat ∧
      ∀ y, d0.nystart ≤ y → y ≤ d0.nyend → s.getD (y - d0.nystart).toNat 0 =
        if k = "CO2" then usedEmis i "CO2_FF" y + usedEmis i "CO2_AFOLU" y else usedEmis i k y := by
  obtain ⟨hy, -⟩ := run_emis ht hc hd0 ha hr hg
  obtain ⟨em', hem', hnam, hcell⟩ := C62_columns ht hc hd0 ha hr hg hidx hl hff hlu
  obtain ⟨tab', y0, em, tf, te, tc, hcarb', -, hem, -, hte, -, -, -, hrt, -, hrc⟩ := runResults_spec hg hres
  rw [hcarb, Except.ok.injEq, Prod.mk.injEq] at hcarb'
  obtain ⟨rfl, -⟩ := hcarb'
  rw [hem, Except.ok.injEq] at hem'
  subst hem'
  obtain ⟨f1, f2, f3, -⟩ := frameOver_spec hte
  rw [em_request h0' h1 h2 hrt hrc hu]
  have : (if k = "CO2" then (carbonFrame g.years tab).cols.get? "Emissions" else none) = none := by
    split
    · exact hno ‹_›
    · rfl
  rw [this, Option.none_or]
  have hkm : k ∈ te.cols.keys := by rw [f2, hnam]; exact hk
  obtain ⟨vs, hvs⟩ := (get?_isSome_iff _ _).2 hkm
  rw [hvs]
  obtain ⟨c, hcm, hc1, hcv⟩ := f3 _ _ hvs
  rw [hy] at hcv
  obtain ⟨l1, l2⟩ := series_at hcv
  refine ⟨vs, by rw [f1, hy], l1, ?_⟩
  intro y y1 y2
  have e := l2 y y1 y2
  rw [hcell c hcm, if_pos ⟨y1, y2⟩, Option.some.injEq, hc1] at e
  exact e.symm

/-- The variables for emissions and the species they stand for. -/
def emissionVariables : List (String × String) :=
  [("Emissions|CO2", "CO2"), ("Emissions|CH4", "CH4"), ("Emissions|N2O", "N2O")]

theorem emissionVariables_names : ∀ v ∈ emissionVariables, inStr "Concentration" v.1 = false ∧
    inStr "Emissions" v.1 = true ∧ variableDict.get? v.1 = some v.2 := by
  intro v hv
  simp only [emissionVariables, List.mem_cons, List.not_mem_nil, or_false] at hv
  rcases hv with rfl | rfl | rfl <;>
    exact ⟨(inStr_lit _ _).trans (by decide +kernel), (inStr_lit _ _).trans (by decide +kernel), vd_lit (by decide +kernel)⟩

theorem carbonFrame_get? (years : List ℤ) (tab : List (Column ℝ)) (k : String) (hk : k ∉ tab.map Prod.fst) :
    (carbonFrame years tab).cols.get? k = none := by
  rw [get?_eq_none_iff]
  intro hm
  apply hk
  unfold carbonFrame Dict.keys at hm
  simp only [List.mem_map, List.mem_filterMap] at hm
  obtain ⟨q, ⟨c, hcm, hq⟩, rfl⟩ := hm
  obtain ⟨c1, c2⟩ := c
  cases c2 with
  | none => cases hq
  | some vs =>
    simp only [Option.map_some, Option.some.injEq] at hq
    subst hq
    exact List.mem_map.2 ⟨_, hcm, rfl⟩

/-- C77, emissions of an emission-driven run with the default carbon cycle (carbon cycle outputs asked for): a request for
the emissions of CO2, methane or nitrous oxide returns the emissions used in the run, perturbations included: for CO2 fossil
plus land use emissions. -/
theorem C77_emissions {tops : ThermalOps ℝ τ}
    {d0 d d1 d2 : Driver ℝ (IR ℝ)} {i : Inputs ℝ} {pamset carb : Option (Dict (PyVal ℝ))} {h0 g : Handler ℝ (IR ℝ)} {es : ℤ}
    {ps : List (RunPams ℝ)} {p : RunPams ℝ} {t : τ}
    (ht : RunTables i.concIn i.emis (Dict.set (Factory.checkPamset pamset) "conc_run" (.bool i.concRun))
      d0.nystart es d0.nyend)
    (hc : construct irOps i pamset carb = .ok h0) (hd0 : d0.source = .handler h0)
    (ha : After irOps tops d0 ps d) (hr : run irOps tops d p = .ok (d1, t)) (hg : d1.source = .handler g)
    {l : ℤ} (hidx : i.emis.idx = pyRange d0.nystart l) (hl : d0.nyend < l)
    (hff : "CO2_FF" ∈ i.emis.cols) (hlu : "CO2_AFOLU" ∈ i.emis.cols) (hrun : i.concRun = false)
    {r : Results ℝ} (hres : runResults irOut tops d1 true = .ok (r, d2))
    (years : List ℤ) {w : Units} {v k u : String} (hv : (v, k) ∈ emissionVariables)
    (hk : k = "CO2" ∨ k ∈ i.emis.cols) (hu : unitOf w.components w.units k = .ok u) :
    ∃ s, getVariable r years v w = .ok ⟨pyRange d0.nystart (d0.nyend + 1), s, u⟩ ∧
      s.length = (d0.nyend + 1 - d0.nystart).toNat ∧
      ∀ y, d0.nystart ≤ y → y ≤ d0.nyend → s.getD (y - d0.nystart).toNat 0 =
        if k = "CO2" then usedEmis i "CO2_FF" y + usedEmis i "CO2_AFOLU" y else usedEmis i k y := by
  obtain ⟨tab', y0, em, tf, te, tc, hcarb, -⟩ := runResults_spec hg hres
  obtain ⟨emis, a, b, c, fb, luc, sun, r', Y, -⟩ :=
    run_year yearLaw_real ht hc hd0 ha hr hg (le_refl _) ht.nonempty
  have hgr : pamB g.pam "conc_run" = .ok false := by
    rw [Y.sameG.pam, Y.sameC.pam, Y.sameB.pam, Y.run, hrun]
  obtain ⟨tab, rfl, hnames⟩ : ∃ tab, tab' = some tab ∧ "Emissions" ∉ tab.map Prod.fst := by
    unfold carbonTable at hcarb
    rw [hg] at hcarb
    simp only [bind_eq_ok, if_true, pure_ok, Except.ok.injEq, Prod.mk.injEq] at hcarb
    obtain ⟨fbs, -, q, hq, rfl, -⟩ := hcarb
    refine ⟨q.1, rfl, ?_⟩
    unfold carbonCycleData at hq
    rw [hgr] at hq
    simp only [bind_eq_ok, bind_ok, Bool.false_eq_true, if_false, pure_ok, Except.ok.injEq] at hq
    obtain ⟨conc, -, ems, -, o, ho, pre, -, rfl⟩ := hq
    simp only
    have : "Emissions" ∉ Dict.keys o.1 := by
      change irOutput _ _ _ _ _ = _ at ho
      unfold irOutput at ho
      simp only [bind_eq_ok] at ho
      obtain ⟨P, -, dt, -, ho⟩ := ho
      split at ho
      · cases ho
      split at ho
      · cases ho
      simp only [Bool.false_eq_true, if_false, pure_ok, Except.ok.injEq] at ho
      subst ho
      simp [Dict.keys]
    change "Emissions" ∉ Dict.keys _
    rw [Dict.mem_keys_set]
    simp [this]
  have hk' : k = "CO2" ∨ k ∈ i.emis.cols ∧ k ≠ "CO2_FF" ∧ k ≠ "CO2_AFOLU" := by
    simp only [emissionVariables, List.mem_cons, List.not_mem_nil, or_false, Prod.mk.injEq] at hv
    rcases hk with h | h
    · exact Or.inl h
    · rcases hv with ⟨-, rfl⟩ | ⟨-, rfl⟩ | ⟨-, rfl⟩
      · exact Or.inl rfl
      · exact Or.inr ⟨h, by decide, by decide⟩
      · exact Or.inr ⟨h, by decide, by decide⟩
  obtain ⟨n0, n1, n2⟩ := emissionVariables_names _ hv
  exact emissions_found ht hc hd0 ha hr hg hidx hl hff hlu hcarb hres years n0 n1 n2 hu hk'
    (fun _ => carbonFrame_get? _ _ _ hnames)


/-- C77, emissions of any run with the box carbon cycle (carbon cycle outputs asked for): the same, also when the run is
driven by concentrations (the box carbon cycle reports no emissions of its own). -/
theorem C77_emissions_box {tops : ThermalOps ℝ τ}
    {d0 d d1 d2 : Driver ℝ (BoxM ℝ)} {i : Inputs ℝ} {pamset carb : Option (Dict (PyVal ℝ))} {h0 g : Handler ℝ (BoxM ℝ)}
    {es : ℤ} {ps : List (RunPams ℝ)} {p : RunPams ℝ} {t : τ}
    (ht : RunTables i.concIn i.emis (Dict.set (Factory.checkPamset pamset) "conc_run" (.bool i.concRun))
      d0.nystart es d0.nyend)
    (hc : construct boxOps i pamset carb = .ok h0) (hd0 : d0.source = .handler h0)
    (ha : After boxOps tops d0 ps d) (hr : run boxOps tops d p = .ok (d1, t)) (hg : d1.source = .handler g)
    {l : ℤ} (hidx : i.emis.idx = pyRange d0.nystart l) (hl : d0.nyend < l)
    (hff : "CO2_FF" ∈ i.emis.cols) (hlu : "CO2_AFOLU" ∈ i.emis.cols)
    {r : Results ℝ} (hres : runResults boxOut tops d1 true = .ok (r, d2))
    (years : List ℤ) {w : Units} {v k u : String} (hv : (v, k) ∈ emissionVariables)
    (hk : k = "CO2" ∨ k ∈ i.emis.cols) (hu : unitOf w.components w.units k = .ok u) :
    ∃ s, getVariable r years v w = .ok ⟨pyRange d0.nystart (d0.nyend + 1), s, u⟩ ∧
      s.length = (d0.nyend + 1 - d0.nystart).toNat ∧
      ∀ y, d0.nystart ≤ y → y ≤ d0.nyend → s.getD (y - d0.nystart).toNat 0 =
        if k = "CO2" then usedEmis i "CO2_FF" y + usedEmis i "CO2_AFOLU" y else usedEmis i k y := by
  obtain ⟨tab', y0, em, tf, te, tc, hcarb, -⟩ := runResults_spec hg hres
  obtain ⟨tab, rfl, hnames⟩ : ∃ tab, tab' = some tab ∧ "Emissions" ∉ tab.map Prod.fst := by
    unfold carbonTable at hcarb
    rw [hg] at hcarb
    simp only [bind_eq_ok, if_true, pure_ok, Except.ok.injEq, Prod.mk.injEq] at hcarb
    obtain ⟨fbs, -, q, hq, rfl, -⟩ := hcarb
    refine ⟨q.1, rfl, ?_⟩
    have hbox : ∀ {k : BoxM ℝ} {ys b co f} {o}, boxOut.output k ys b co f = .ok o → "Emissions" ∉ Dict.keys o.1 := by
      intro k ys b co f o ho
      unfold boxOut at ho
      simp only at ho
      unfold boxOutput at ho
      simp only [bind_eq_ok] at ho
      obtain ⟨P, -, ho⟩ := ho
      split at ho
      · cases ho
      simp only [pure_ok, Except.ok.injEq] at ho
      subst ho
      simp [Dict.keys]
    unfold carbonCycleData at hq
    simp only [bind_eq_ok] at hq
    obtain ⟨conc, -, run, -, hq⟩ := hq
    change "Emissions" ∉ Dict.keys _
    split at hq
    · simp only [bind_eq_ok, pure_ok, Except.ok.injEq] at hq
      obtain ⟨o, ho, rfl⟩ := hq
      exact hbox ho
    · simp only [bind_eq_ok, pure_ok, Except.ok.injEq] at hq
      obtain ⟨ems, -, o, ho, pre, -, rfl⟩ := hq
      simp only
      rw [Dict.mem_keys_set]
      simp [hbox ho]
  have hk' : k = "CO2" ∨ k ∈ i.emis.cols ∧ k ≠ "CO2_FF" ∧ k ≠ "CO2_AFOLU" := by
    simp only [emissionVariables, List.mem_cons, List.not_mem_nil, or_false, Prod.mk.injEq] at hv
    rcases hk with h | h
    · exact Or.inl h
    · rcases hv with ⟨-, rfl⟩ | ⟨-, rfl⟩ | ⟨-, rfl⟩
      · exact Or.inl rfl
      · exact Or.inr ⟨h, by decide, by decide⟩
      · exact Or.inr ⟨h, by decide, by decide⟩
  obtain ⟨n0, n1, n2⟩ := emissionVariables_names _ hv
  exact emissions_found ht hc hd0 ha hr hg hidx hl hff hlu hcarb hres years n0 n1 n2 hu hk'
    (fun _ => carbonFrame_get? _ _ _ hnames)

/-- C77, CO2 emissions of a concentration-driven run with the default carbon cycle: a request returns the emissions of the
carbon cycle table, that is (C73) those that reproduce the concentrations, not the emissions of the input. -/
theorem C77_emissions_from_concentrations {tops : ThermalOps ℝ τ}
    {d0 d d1 d2 : Driver ℝ (IR ℝ)} {i : Inputs ℝ} {pamset carb : Option (Dict (PyVal ℝ))} {h0 g : Handler ℝ (IR ℝ)} {es : ℤ}
    {ps : List (RunPams ℝ)} {p : RunPams ℝ} {t : τ}
    (ht : RunTables i.concIn i.emis (Dict.set (Factory.checkPamset pamset) "conc_run" (.bool i.concRun))
      d0.nystart es d0.nyend)
    (hc : construct irOps i pamset carb = .ok h0) (hd0 : d0.source = .handler h0)
    (ha : After irOps tops d0 ps d) (hr : run irOps tops d p = .ok (d1, t)) (hg : d1.source = .handler g)
    (hrun : i.concRun = true) {r : Results ℝ} (hres : runResults irOut tops d1 true = .ok (r, d2))
    (years : List ℤ) {w : Units} {u : String} (hu : unitOf w.components w.units "CO2" = .ok u) :
    ∃ tab E, carbonTable irOut tops d1 true = .ok (some tab, d2) ∧ ("Emissions", some E) ∈ tab ∧
      (tab.map Prod.fst).Nodup ∧
      getVariable r years "Emissions|CO2" w = .ok ⟨pyRange d0.nystart (d0.nyend + 1), E, u⟩ := by
  obtain ⟨hy, -⟩ := run_emis ht hc hd0 ha hr hg
  obtain ⟨tab', y0, em, tf, te, tc, hcarb, -, -, -, hte, -, -, -, hrt, -, hrc⟩ := runResults_spec hg hres
  obtain ⟨emis, a, b, c, fb, luc, sun, r', Y, -⟩ :=
    run_year yearLaw_real ht hc hd0 ha hr hg (le_refl _) ht.nonempty
  have hgr : pamB g.pam "conc_run" = .ok true := by
    rw [Y.sameG.pam, Y.sameC.pam, Y.sameB.pam, Y.run, hrun]
  obtain ⟨f1, -⟩ := frameOver_spec hte
  obtain ⟨tab, E, rfl, hm, hnd, hget⟩ : ∃ tab E, tab' = some tab ∧ ("Emissions", some E) ∈ tab ∧ (tab.map Prod.fst).Nodup ∧
      (carbonFrame g.years tab).cols.get? "Emissions" = some E := by
    have hcarb2 := hcarb
    unfold carbonTable at hcarb2
    rw [hg] at hcarb2
    simp only [bind_eq_ok, if_true, pure_ok, Except.ok.injEq, Prod.mk.injEq] at hcarb2
    obtain ⟨fbs, -, q, hq, rfl, -⟩ := hcarb2
    unfold carbonCycleData at hq
    rw [hgr] at hq
    simp only [bind_eq_ok, bind_ok, if_true, pure_ok, Except.ok.injEq] at hq
    obtain ⟨conc, -, o, ho, rfl⟩ := hq
    change irOutput _ _ _ _ _ = _ at ho
    unfold irOutput at ho
    simp only [bind_eq_ok] at ho
    obtain ⟨P, -, dt, -, ho⟩ := ho
    split at ho
    · cases ho
    split at ho
    · cases ho
    simp only [if_true, pure_ok, Except.ok.injEq] at ho
    subst ho
    refine ⟨_, _, rfl, List.mem_append_right _ (List.mem_cons_of_mem _ (List.mem_singleton.2 rfl)), by simp, ?_⟩
    unfold carbonFrame
    cases Carbon.airborneFraction (BackCalc.backCalculate P g.carbon.hold conc fun i => dt.getD i 0.0).1 conc
      P.preindustrial_co2_conc <;> simp [Dict.get?]
  obtain ⟨n0, n1, n2⟩ := emissionVariables_names ("Emissions|CO2", "CO2") (by simp [emissionVariables])
  refine ⟨tab, E, hcarb, hm, hnd, ?_⟩
  rw [em_request n0 n1 n2 hrt hrc hu, if_pos rfl, hget, Option.some_or, f1, hy]

/-- C77 fails for emissions when the carbon cycle outputs were not asked for: every request for emissions raises `KeyError`,
although the emission table is there. -/
theorem C77_emissions_unasked_false {oops : OutputOps ℝ κ} {tops : ThermalOps ℝ τ} {d1 d2 : Driver ℝ κ} {g : Handler ℝ κ}
    {r : Results ℝ} (hg : d1.source = .handler g) (hres : runResults oops tops d1 false = .ok (r, d2))
    (years : List ℤ) (w : Units) {v k : String} (hv : (v, k) ∈ emissionVariables) :
    (∃ f, r.tables.get? "emissions" = some f) ∧ getVariable r years v w = .error .keyError := by
  obtain ⟨tab', y0, em, tf, te, tc, hcarb, -, -, -, hte, -, -, -, hrt, -, hrc⟩ := runResults_spec hg hres
  have : tab' = none := by
    unfold carbonTable at hcarb
    rw [hg] at hcarb
    simp only [bind_eq_ok, Bool.false_eq_true, if_false, pure_ok, Except.ok.injEq, Prod.mk.injEq] at hcarb
    obtain ⟨fbs, -, e, -⟩ := hcarb
    exact e.symm
  subst this
  refine ⟨⟨te, hrt⟩, ?_⟩
  obtain ⟨n0, n1, n2⟩ := emissionVariables_names _ hv
  have htE : Dict.getE r.tables "emissions" = .ok te := by unfold Dict.getE; rw [hrt]
  have htC : Dict.getE r.tables "carbon cycle" = .error .keyError := by unfold Dict.getE; rw [hrc]; rfl
  unfold getVariable
  simp only at n0 n1 n2
  rw [n0, if_neg (by decide), n1, if_pos rfl, n2]
  unfold fromEm
  simp only [htE, htC, bind_ok, bind_error]

/-- C77 fails for tropospheric ozone: a request for its concentration gives no answer, although the run reports it. The
dictionary of variables has the name with a stray apostrophe, and only a request with this name is answered. -/
theorem C77_ozone_false {r : Results ℝ} (years : List ℤ) (w : Units) :
    getVariable r years "Atmospheric Concentrations|Ozone|Tropospheric" w = .ok ⟨[], [], "NoUnit"⟩ ∧
    ∀ {t : Df ℝ} {s : List ℝ} {u : String}, r.tables.get? "concentrations" = some t → t.cols.get? "TROP_O3" = some s →
      unitOf w.components w.concunits "TROP_O3" = .ok u →
      getVariable r years "Atmospheric Concentrations|Ozone|Tropospheric'" w = .ok ⟨t.years, s, u⟩ := by
  constructor
  · refine C67_unknown ?_ (by simp [carbonOutputs, Dict.get?])
    have h := get_code variableDict "Atmospheric Concentrations|Ozone|Tropospheric"
    rw [variable_code, show getN variableN (code "Atmospheric Concentrations|Ozone|Tropospheric") = none from
      (congrArg (getN variableN) (code_ofList _)).trans (by decide +kernel)] at h
    simpa using h
  · intro t s u ht hs hu
    rw [conc_request (k := "TROP_O3") ((inStr_lit _ _).trans (by decide +kernel)) (vd_lit (by decide +kernel)) ht hu, hs]

/-! ## Instances -/

open Verif.Exec Verif.Model.ThermalInst

/-- The inputs of `Verif/Exec/RichRun.lean` with emissions that begin with the start year. -/
noncomputable def cutInputs (b : Bool) : Inputs ℝ :=
  { richInputs b with emis := { (richInputs b).emis with idx := pyRange 1998 2012 } }

theorem cut_tables (b : Bool) : CompleteTables (cutInputs b) 1998 2000 2003 2010 :=
  { rich_tables b with
    emisRows := ⟨1998, 2012, rfl, by decide, by decide⟩
    methane := fun h => ⟨((rich_tables b).methane h).1, by simp [cutInputs, mem_pyRange]⟩
    ozone := fun h => ⟨((rich_tables b).ozone h).1, by simp [cutInputs, mem_pyRange], ((rich_tables b).ozone h).2.2⟩
    pertEm := by
      intro rows h r hr
      have h1 : some [⟨"CO2", 2001, 3⟩] = some rows := h
      rw [Option.some.injEq] at h1
      have h2 := ((rich_tables b).pertEm rows h r hr).2
      subst h1
      simp only [List.mem_cons, List.not_mem_nil, or_false] at hr
      subst hr
      exact ⟨by simp [cutInputs, mem_pyRange], h2⟩ }

/-- A run of the two-layer model with the default carbon cycle and all kinds of gases, emission-driven or driven by
concentrations. -/
theorem cut_case (b : Bool) : ∃ (h0 : Handler ℝ (IR ℝ)) (d1 : Driver ℝ (IR ℝ))
    (t : TwoLayer.Pams ℝ × TwoLayer.State ℝ) (g : Handler ℝ (IR ℝ)),
    construct irOps (cutInputs b) richPam none = .ok h0 ∧
    RunTables (cutInputs b).concIn (cutInputs b).emis
      (Dict.set (Factory.checkPamset richPam) "conc_run" (.bool (cutInputs b).concRun)) 1998 2000 2003 ∧
    run irOps twoLayerOps (richDriver h0) ⟨none, none, none⟩ = .ok (d1, t) ∧ d1.source = .handler g := by
  obtain ⟨h1, h2, h3, h4, h5⟩ := rich_pams
  obtain ⟨h0, hc, h⟩ := C63_default (i := cutInputs b) (carb := none) yearLaw_real rich_gases (cut_tables b) h1 h2 h3 h4
    (by decide) (.absent (by decide)) (by simp)
  obtain ⟨d1, hd⟩ := h (richDriver h0) ([] ++ [⟨none, none, none⟩]) rfl rfl rfl (rich_series h0) (by
    intro p hp
    simp only [List.nil_append, List.mem_singleton] at hp
    subst hp
    exact ⟨h5, .absent (by decide), by simp⟩)
  obtain ⟨d, t, ha, hr⟩ := after_snoc hd
  have := after_nil ha
  subst this
  obtain ⟨g0, g, -, hg, -⟩ := run_handler_spec (rfl : (richDriver h0).source = .handler h0) hr
  exact ⟨h0, d1, t, g, hc, (cut_tables b).run h1 h2 h3, hr, hg⟩

theorem cut_once (b : Bool) : (cutInputs b).gas.keys.Nodup ∧ "Total_forcing" ∉ (cutInputs b).gas.keys :=
  rich_once b

theorem cut_noJust : NoJustOne richPam [] ⟨none, none, none⟩ := by
  refine ⟨by simp [richPam, Dict.keys], ?_⟩
  intro q hq
  simp only [List.nil_append, List.mem_singleton] at hq
  subst hq
  simp [Dict.keys]

/-- Units as in the gas table. -/
def richUnits : Units := ⟨["CO2", "CO2_lu", "CH4", "N2O", "CFC-11"], ["PgC / yr", "PgC / yr", "Tg / yr", "TgN2ON / yr", "Gg / yr"],
  ["ppm", "ppm", "ppb", "ppb", "ppt"]⟩

/-- An emission-driven run: the request for CO2 emissions returns 11 + 11 + 3 Pg C for 2001 (fossil, land use and
perturbation); the concentration of CFC-11 is that of the run. -/
example : ∃ (d1 d2 : Driver ℝ (IR ℝ)) (g : Handler ℝ (IR ℝ)) (r : Results ℝ) (s s' : List ℝ), d1.source = .handler g ∧
    runResults irOut twoLayerOps d1 true = .ok (r, d2) ∧
    getVariable r [] "Emissions|CO2" richUnits = .ok ⟨pyRange 1998 2004, s, "PgC / yr"⟩ ∧ s.getD 3 0 = 25 ∧
    getVariable r [] "Atmospheric Concentrations|Montreal Gases|CFC|CFC11" richUnits = .ok ⟨pyRange 1998 2004, s', "ppt"⟩ ∧
    ∃ c ∈ reportConc g, c.1 = "CFC-11" ∧ c.2 2001 = some (s'.getD 3 0) := by
  obtain ⟨h0, d1, t, g, hc, ht, hr, hg⟩ := cut_case false
  obtain ⟨P, emis, E, T, ff, lu, temp, conc, tab, -, -, -, -, -, -, htab, -⟩ := C72_run (d0 := richDriver h0) yearLaw_real (cut_once false).1
    twoLayer_names ht hc rfl .fresh hr hg rfl rich_co2 (by decide) rfl twoLayer_temperature twoLayer_first
  obtain ⟨r, hres, -, -⟩ := C77_tables (d0 := richDriver h0) (cut_once false).1 (cut_once false).2 twoLayer_names ht hc rfl .fresh
    hr hg cut_noJust (l := 2012) rfl (by simp [richDriver]) (by simp [cutInputs, richInputs]) (by simp [cutInputs, richInputs]) htab
  obtain ⟨s, e1, -, e3⟩ := C77_emissions (d0 := richDriver h0) ht hc rfl .fresh hr hg (l := 2012) rfl (by simp [richDriver])
    (by simp [cutInputs, richInputs]) (by simp [cutInputs, richInputs]) rfl hres [] (w := richUnits) (u := "PgC / yr")
    (v := "Emissions|CO2") (k := "CO2") (by simp [emissionVariables]) (Or.inl rfl) rfl
  obtain ⟨c, hcm, hc1⟩ : ∃ c ∈ reportConc g, c.1 = "CFC-11" := by
    have := (C12_reported (d0 := richDriver h0) (cut_once false).1 hc rfl hr hg "CFC-11").2 ⟨_, rfl, Or.inl (by decide)⟩
    obtain ⟨c, h1, h2⟩ := List.mem_map.1 this
    exact ⟨c, h1, h2⟩
  obtain ⟨s', e4, -, e5⟩ := (C77_concentrations (d0 := richDriver h0) (cut_once false).1 ht hc rfl .fresh hr hg hres []
    (w := richUnits) (u := "ppt") (v := "Atmospheric Concentrations|Montreal Gases|CFC|CFC11") (k := "CFC-11")
    (by simp [concVariables]) rfl).1 c hcm hc1
  refine ⟨d1, d1, g, r, s, s', hg, hres, e1, ?_, e4, c, hcm, hc1, e5 2001 (by simp [richDriver]) (by simp [richDriver])⟩
  have := e3 2001 (by simp [richDriver]) (by simp [richDriver])
  rw [if_pos rfl] at this
  refine Eq.trans (by rfl) (this.trans ?_)
  simp [usedEmis, cutInputs, richInputs, emissionTarget]
  norm_num

/-- A run driven by concentrations: the request for CO2 emissions is answered, and the concentration of CO2 in 2001 is the
prescribed 306 ppm. -/
example : ∃ (d1 d2 : Driver ℝ (IR ℝ)) (r : Results ℝ) (E s : List ℝ),
    runResults irOut twoLayerOps d1 true = .ok (r, d2) ∧
    getVariable r [] "Emissions|CO2" richUnits = .ok ⟨pyRange 1998 2004, E, "PgC / yr"⟩ ∧
    getVariable r [] "Atmospheric Concentrations|CO2" richUnits = .ok ⟨pyRange 1998 2004, s, "ppm"⟩ ∧ s.getD 3 0 = 306 := by
  obtain ⟨h0, d1, t, g, hc, ht, hr, hg⟩ := cut_case true
  obtain ⟨P, E, temp, tab, st, -, -, htab, -⟩ := C73_run (d0 := richDriver h0) yearLaw_real twoLayer_names ht
    rich_pams.2.2.2.1 (by decide) hc rfl .fresh hr hg rfl rich_co2 rfl twoLayer_temperature twoLayer_first
  obtain ⟨r, hres, -, -⟩ := C77_tables (d0 := richDriver h0) (cut_once true).1 (cut_once true).2 twoLayer_names ht hc rfl .fresh
    hr hg cut_noJust (l := 2012) rfl (by simp [richDriver]) (by simp [cutInputs, richInputs]) (by simp [cutInputs, richInputs]) htab
  obtain ⟨tab', E', -, -, -, e1⟩ := C77_emissions_from_concentrations (d0 := richDriver h0) ht hc rfl .fresh hr hg rfl hres []
    (w := richUnits) (u := "PgC / yr") rfl
  obtain ⟨c, hcm, hc1⟩ : ∃ c ∈ reportConc g, c.1 = "CO2" := by
    have := (C12_reported (d0 := richDriver h0) (cut_once true).1 hc rfl hr hg "CO2").2 ⟨_, rfl, Or.inl (by decide)⟩
    obtain ⟨c, h1, h2⟩ := List.mem_map.1 this
    exact ⟨c, h1, h2⟩
  obtain ⟨s, e4, -, e5⟩ := (C77_concentrations (d0 := richDriver h0) (cut_once true).1 ht hc rfl .fresh hr hg hres []
    (w := richUnits) (u := "ppm") (v := "Atmospheric Concentrations|CO2") (k := "CO2")
    (by simp [concVariables]) rfl).1 c hcm hc1
  refine ⟨d1, _, r, E', s, hres, e1, e4, ?_⟩
  have h1 := e5 2001 (by simp [richDriver]) (by simp [richDriver])
  have h2 := C12_conc_run (d0 := richDriver h0) yearLaw_real rfl ht hc rfl .fresh hr hg c hcm (by rw [hc1]; decide)
    (by rw [hc1]; simp [cutInputs, richInputs]) 2001 (by simp [richDriver]) (by simp [richDriver])
  rw [h2, Option.some.injEq] at h1
  refine Eq.trans (by rfl) (h1.symm.trans ?_)
  simp [cutInputs, richInputs]
  norm_num

/-- The request for the anthropogenic forcing is answered with the total forcing of the run. -/
example : ∃ (d1 d2 : Driver ℝ (IR ℝ)) (g : Handler ℝ (IR ℝ)) (r : Results ℝ) (s : List ℝ), d1.source = .handler g ∧
    runResults irOut twoLayerOps d1 true = .ok (r, d2) ∧
    getVariable r [] "Effective Radiative Forcing|Anthropogenic" richUnits = .ok ⟨pyRange 1998 2004, s, "W/m^2"⟩ ∧
    entry d1.results "Total_forcing" 4 = some (s.getD 4 0) := by
  obtain ⟨h0, d1, t, g, hc, ht, hr, hg⟩ := cut_case false
  obtain ⟨P, emis, E, T, ff, lu, temp, conc, tab, -, -, -, -, -, -, htab, -⟩ := C72_run (d0 := richDriver h0) yearLaw_real
    (cut_once false).1 twoLayer_names ht hc rfl .fresh hr hg rfl rich_co2 (by decide) rfl twoLayer_temperature twoLayer_first
  obtain ⟨r, hres, -, -⟩ := C77_tables (d0 := richDriver h0) (cut_once false).1 (cut_once false).2 twoLayer_names ht hc rfl .fresh
    hr hg cut_noJust (l := 2012) rfl (by simp [richDriver]) (by simp [cutInputs, richInputs]) (by simp [cutInputs, richInputs]) htab
  obtain ⟨-, tot, sun, nh, sh, w, ⟨c, hcm, hc1, hc2⟩, h2, -⟩ := C06_run (d0 := richDriver h0) (cut_once false).1 (cut_once false).2
    twoLayer_names ht hc rfl .fresh hr hg cut_noJust (y := 2002) (by simp [richDriver]) (by simp [richDriver])
  obtain ⟨s, e1, -, e2⟩ := (C77_forcings (d0 := richDriver h0) (cut_once false).1 (cut_once false).2
    (by simp [cutInputs, richInputs, richGas, Dict.keys]) ht hc rfl .fresh hr hg hres [] richUnits
    (v := "Effective Radiative Forcing|Anthropogenic") (k := "Total_forcing") (by simp [forcVariables])).1 c hcm hc1
  refine ⟨d1, d1, g, r, s, hg, hres, e1, ?_⟩
  have h3 := e2 2002 (by simp [richDriver]) (by simp [richDriver])
  rw [hc2] at h3
  exact Eq.trans h2 h3

end
end Verif.Props
