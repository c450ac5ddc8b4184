import Verif.Props.C51_C52

/-!
# C67: documented output variables can be requested after a run; C68: units of the gas table
-/

namespace Verif.Props
open Verif.Py Verif.Py.Dict Verif.Model Verif.Model.Reader Verif.Model.Handler Verif.Model.Driver
  Verif.Model.ThermalInst Verif.Lemmas.ReaderCodes

variable {F κ τ : Type} [Add F] [Sub F] [Mul F] [Div F] [Neg F] [OfScientific F] [LT F] [DecidableLT F] [MathFn F]

/-! ## C67 -/

/-- The answer for a variable that is a plain series `c` of the results. -/
theorem series_request {r : Results F} {years : List Int} {w : Units} {v c : String}
    (h1 : inStr "Concentration" v = false) (h2 : inStr "Emissions" v = false) (h3 : inStr "Forcing" v = false)
    (h4 : carbonOutputs.get? v = none) (hc : variableDict.get? v = some c) :
    getVariable r years v w = (if c ∈ tempList then do
        let s ← r.series.getE c
        if c = "RIB_glob" then return ⟨years, s.map heatUptake, "ZJ / yr"⟩ else return ⟨years, s, "K"⟩
      else if c ∈ ohcList then do
        let s ← r.series.getE c
        return ⟨years, s.map (fun x => x * 10.0), "ZJ"⟩
      else .ok noAnswer : Except PyErr (Answer F)) := by
  unfold getVariable
  rw [h1, h2, h3, h4, hc]
  rfl

/-- What is documented for one variable: its series, its unit and the conversion from the model's unit. -/
structure Documented where
  name : String
  series : String
  unit : String

/-- Temperatures in K, heat uptake in ZJ per year, heat content in ZJ. -/
def documented : List Documented :=
  [⟨"Surface Air Temperature Change", "dT_glob_air", "K"⟩,
   ⟨"Surface Air Ocean Blended Temperature Change", "dT_glob", "K"⟩,
   ⟨"Surface Air Ocean Temperature Change", "dT_glob_sea", "K"⟩,
   ⟨"Heat Uptake", "RIB_glob", "ZJ / yr"⟩,
   ⟨"Heat Content|Ocean", "OHCTOT", "ZJ"⟩,
   ⟨"Heat Content|Ocean|0-700m", "OHC700", "ZJ"⟩]

/-- From the model's units (K, W per m² of an ocean of 3.61e14 m², 1e22 J) to the documented ones (a year has 365 days of
86400 s; 1 ZJ is 1e21 J). -/
noncomputable def convert (unit : String) (x : ℝ) : ℝ :=
  if unit = "ZJ / yr" then x * (3.61e14 * (365 * 86400)) / 1e21
  else if unit = "ZJ" then x * 1e22 / 1e21
  else x

theorem documented_series {d : Documented} (hd : d ∈ documented) : variableDict.get? d.name = some d.series := by
  simp only [documented, List.mem_cons, List.not_mem_nil, or_false] at hd
  rcases hd with rfl | rfl | rfl | rfl | rfl | rfl <;> exact vd_lit (by decide +kernel)

/-- The request for each documented variable. -/
theorem documented_request {r : Results ℝ} {years : List Int} {w : Units} {d : Documented} (hd : d ∈ documented)
    {s : List ℝ} (hs : r.series.get? d.series = some s) :
    getVariable r years d.name w = .ok ⟨years, s.map (convert d.unit), d.unit⟩ := by
  have hE : Dict.getE r.series d.series = .ok s := by unfold Dict.getE; rw [hs]
  have cK : convert "K" = id := by funext x; simp [convert]
  have cH : convert "ZJ / yr" = heatUptake := by
    funext x
    simp only [convert, heatUptake, Reader.OCEAN_AREA, if_true]
    norm_num
    ring
  have cZ : convert "ZJ" = fun x => x * 10.0 := by
    funext x
    simp only [convert, String.reduceEq, if_false, if_true]
    norm_num
    ring
  have hvd : variableDict.get? d.name = some d.series := documented_series hd
  simp only [documented, List.mem_cons, List.not_mem_nil, or_false] at hd
  rcases hd with rfl | rfl | rfl | rfl | rfl | rfl
  all_goals
    simp only at hE hvd ⊢
    rw [series_request ((inStr_lit _ _).trans (by decide +kernel)) ((inStr_lit _ _).trans (by decide +kernel))
      ((inStr_lit _ _).trans (by decide +kernel)) (by simp [carbonOutputs, Dict.get?]) hvd, hE]
    simp only [tempList, ohcList, List.mem_cons, List.not_mem_nil, or_false, String.reduceEq, if_false, if_true,
      or_true, true_or, bind_ok, pure_ok, cK, cH, cZ, List.map_id]

/-- **C67**, the part that holds: after any successful run of any instance whose thermal model has the outputs of the
upwelling-diffusion model, every documented temperature, heat uptake and heat content variable can be requested; the
answer is the run's series, one value per year of the run, in the documented unit. What is missing: "Anomalous
Radiation" (below); the two-layer model. -/
theorem C67_partial {cops : CarbonOps ℝ κ} {tops : ThermalOps ℝ τ} {d d' : Driver ℝ κ} {p : RunPams ℝ} {t' : τ}
    (ho : tops.outputs = udmOutputs) (h : run cops tops d p = .ok (d', t')) (tables : Dict (Df ℝ)) (w : Units)
    {v : Documented} (hv : v ∈ documented) : ∃ s, d'.results.get? v.series = some s ∧
      getVariable ⟨tables, d'.results⟩ (pyRange d.nystart (d.nyend + 1)) v.name w =
        .ok ⟨pyRange d.nystart (d.nyend + 1), s.map (convert v.unit), v.unit⟩ ∧
      s.length = (pyRange d.nystart (d.nyend + 1)).length := by
  have hnd : (tops.outputs.map Prod.fst ++ forcOutputList).Nodup := by
    rw [ho]; decide +kernel
  have hm : ∀ v ∈ documented, v.series ∈ udmOutputs.map Prod.fst := by decide +kernel
  obtain ⟨s, hs⟩ := results_has hnd h (o := v.series) (by rw [ho]; exact List.mem_append_left _ (hm v hv))
  refine ⟨s, hs, documented_request hv hs, ?_⟩
  obtain ⟨_, _, _, _, -, -, -, -, n1, n2, -, h1, -⟩ := C40_run hnd h
  obtain ⟨q, hq, hqs⟩ := List.mem_map.1 (hm v hv)
  obtain ⟨a, e, hl, -⟩ := h1 q (by rw [ho]; exact hq)
  rw [hqs, hs, Option.some.injEq] at e
  subst e
  rw [hl, n1, n2]
  unfold pyRange
  rw [List.length_map, List.length_range]
  congr 1
  omega

/-- **C67** as coded fails for "Anomalous Radiation": after every successful run of a new instance, with either thermal
model, the request raises `KeyError`. -/
theorem C67_anomalous_false {cops : CarbonOps F κ} {tops : ThermalOps F τ} {d d' : Driver F κ} {p : RunPams F} {t' : τ}
    (ho : tops.outputs = udmOutputs ∨ tops.outputs = twoLayerOutputs) (hr : d.results = [])
    (h : run cops tops d p = .ok (d', t')) (tables : Dict (Df F)) (years : List Int) (w : Units) :
    getVariable ⟨tables, d'.results⟩ years "Anomalous Radiation" w = .error .keyError := by
  have hno : d'.results.get? "anomalous_radiation" = none := by
    refine results_only ?_ h ?_ (by rw [hr]; rfl)
    · rcases ho with ho | ho <;> rw [ho] <;> decide +kernel
    · rcases ho with ho | ho <;> rw [ho] <;> decide +kernel
  rw [series_request (c := "anomalous_radiation") ((inStr_lit _ _).trans (by decide +kernel))
    ((inStr_lit _ _).trans (by decide +kernel)) ((inStr_lit _ _).trans (by decide +kernel))
    (by simp [carbonOutputs, Dict.get?]) (vd_lit (by decide +kernel)), if_pos (by simp [tempList])]
  unfold Dict.getE
  rw [hno]
  rfl

/-- With the two-layer model the surface air and the sea surface temperature cannot be requested either. -/
theorem C67_two_layer_false {cops : CarbonOps F κ} {tops : ThermalOps F τ} {d d' : Driver F κ} {p : RunPams F} {t' : τ}
    (ho : tops.outputs = twoLayerOutputs) (hr : d.results = [])
    (h : run cops tops d p = .ok (d', t')) (tables : Dict (Df F)) (years : List Int) (w : Units) :
    getVariable ⟨tables, d'.results⟩ years "Surface Air Temperature Change" w = .error .keyError ∧
    getVariable ⟨tables, d'.results⟩ years "Surface Air Ocean Temperature Change" w = .error .keyError := by
  have hno : ∀ o, o ∉ twoLayerOutputs.map Prod.fst ++ forcOutputList → d'.results.get? o = none := by
    intro o hm
    refine results_only ?_ h (by rw [ho]; exact hm) (by rw [hr]; rfl)
    rw [ho]
    decide +kernel
  constructor
  · rw [series_request (c := "dT_glob_air") ((inStr_lit _ _).trans (by decide +kernel))
      ((inStr_lit _ _).trans (by decide +kernel)) ((inStr_lit _ _).trans (by decide +kernel))
      (by simp [carbonOutputs, Dict.get?]) (vd_lit (by decide +kernel)), if_pos (by simp [tempList])]
    unfold Dict.getE
    rw [hno _ (by decide +kernel)]
    rfl
  · rw [series_request (c := "dT_glob_sea") ((inStr_lit _ _).trans (by decide +kernel))
      ((inStr_lit _ _).trans (by decide +kernel)) ((inStr_lit _ _).trans (by decide +kernel))
      (by simp [carbonOutputs, Dict.get?]) (vd_lit (by decide +kernel)), if_pos (by simp [tempList])]
    unfold Dict.getE
    rw [hno _ (by decide +kernel)]
    rfl

/-- With the two-layer model the other four can be. -/
theorem C67_two_layer_partial {cops : CarbonOps ℝ κ} {tops : ThermalOps ℝ τ} {d d' : Driver ℝ κ} {p : RunPams ℝ} {t' : τ}
    (ho : tops.outputs = twoLayerOutputs) (h : run cops tops d p = .ok (d', t')) (tables : Dict (Df ℝ)) (w : Units)
    {v : Documented} (hv : v ∈ documented)
    (hn : v.name ≠ "Surface Air Temperature Change" ∧ v.name ≠ "Surface Air Ocean Temperature Change") :
    ∃ s, d'.results.get? v.series = some s ∧ ∀ years,
      getVariable ⟨tables, d'.results⟩ years v.name w = .ok ⟨years, s.map (convert v.unit), v.unit⟩ := by
  have hnd : (tops.outputs.map Prod.fst ++ forcOutputList).Nodup := by
    rw [ho]; decide +kernel
  have hm : v.series ∈ twoLayerOutputs.map Prod.fst := by
    simp only [documented, List.mem_cons, List.not_mem_nil, or_false] at hv
    rcases hv with rfl | rfl | rfl | rfl | rfl | rfl
    · exact absurd rfl hn.1
    · simp [twoLayerOutputs]
    · exact absurd rfl hn.2
    · simp [twoLayerOutputs]
    · simp [twoLayerOutputs]
    · simp [twoLayerOutputs]
  obtain ⟨s, hs⟩ := results_has hnd h (o := v.series) (by rw [ho]; exact List.mem_append_left _ hm)
  exact ⟨s, hs, fun years => documented_request hv hs⟩

/-- There are such runs: the two-year run of C41. -/
example : ∃ d' t', run noCarbon (twoLayerOps (F := ℝ)) exRfDriver ⟨none, none, none⟩ = .ok (d', t') ∧
    (twoLayerOps (F := ℝ)).outputs = twoLayerOutputs ∧ exRfDriver.results = [] ∧
    ∀ w, getVariable ⟨[], d'.results⟩ [2000, 2001] "Anomalous Radiation" w = .error .keyError := by
  obtain ⟨d', t', h⟩ := exRf_runs
  exact ⟨d', t', h, rfl, rfl, fun w => C67_anomalous_false (.inr rfl) rfl h [] _ w⟩

/-- A variable nobody knows gets an empty answer, not an error. -/
theorem C67_unknown {r : Results F} {years : List Int} {w : Units} {v : String} (h1 : variableDict.get? v = none)
    (h2 : carbonOutputs.get? v = none) : getVariable r years v w = .ok ⟨[], [], "NoUnit"⟩ := by
  unfold getVariable
  rw [h1, h2]
  split
  · rfl
  · split
    · rfl
    · split <;> rfl

/-! ## C68 -/

theorem insert1_map {α β : Type} (f : α → β) (l : List α) (a : α) : insert1 (l.map f) (f a) = (insert1 l a).map f := by
  unfold insert1
  rw [List.map_append, List.map_cons, List.map_take, List.map_drop]

theorem mem_insert1 {α : Type} {l : List α} {a x : α} : x ∈ insert1 l a ↔ x = a ∨ x ∈ l := by
  unfold insert1
  rw [List.mem_append, List.mem_cons]
  constructor
  · rintro (h | h | h)
    · exact .inr (List.mem_of_mem_take h)
    · exact .inl h
    · exact .inr (List.mem_of_mem_drop h)
  · rintro (h | h)
    · exact .inr (.inl h)
    · rw [← List.take_append_drop 1 l, List.mem_append] at h
      rcases h with h | h
      · exact .inl h
      · exact .inr (.inr h)

theorem unitOf_pairs : ∀ {l : List (String × String)} {k v : String}, (∀ v', (k, v') ∈ l → v' = v) → (k, v) ∈ l →
    unitOf (l.map Prod.fst) (l.map Prod.snd) k = .ok v := by
  intro l k v hu hm
  have hk : k ∈ l.map Prod.fst := List.mem_map.mpr ⟨(k, v), hm, rfl⟩
  unfold unitOf
  rw [if_pos hk]
  have hi : (l.map Prod.fst).idxOf k < (l.map Prod.fst).length := List.idxOf_lt_length_of_mem hk
  have hi' : (l.map Prod.fst).idxOf k < l.length := by rwa [List.length_map] at hi
  have hg : (l.map Prod.fst)[(l.map Prod.fst).idxOf k] = k := List.getElem_idxOf hi
  rw [List.getElem_map] at hg
  rw [List.getElem?_map, List.getElem?_eq_getElem hi']
  simp only [Option.map_some]
  congr 1
  apply hu
  have : l[(l.map Prod.fst).idxOf k] = (k, l[(l.map Prod.fst).idxOf k].2) := Prod.ext hg rfl
  rw [← this]
  exact List.getElem_mem hi'

/-- The unit found for the component of a row. -/
theorem unitOf_row {rows : List GasUnits} {r : GasUnits} (hr : r ∈ rows) (hd : (rows.map (·.component)).Nodup)
    (hlu : r.component ≠ "CO2_lu") (f : GasUnits → String) (lu : String) :
    unitOf (insert1 (rows.map (·.component)) "CO2_lu") (insert1 (rows.map f) lu) r.component = .ok (f r) := by
  have e1 : insert1 (rows.map (·.component)) "CO2_lu" =
      (insert1 (rows.map (fun r => (r.component, f r))) ("CO2_lu", lu)).map Prod.fst := by
    rw [← insert1_map, List.map_map]; rfl
  have e2 : insert1 (rows.map f) lu =
      (insert1 (rows.map (fun r => (r.component, f r))) ("CO2_lu", lu)).map Prod.snd := by
    rw [← insert1_map, List.map_map]; rfl
  rw [e1, e2]
  apply unitOf_pairs
  · intro v' hv'
    rw [mem_insert1, List.mem_map] at hv'
    rcases hv' with h | ⟨q, hq, he⟩
    · rw [Prod.mk.injEq] at h
      exact absurd h.1 hlu
    · rw [Prod.mk.injEq] at he
      have : q = r := List.inj_on_of_nodup_map hd hq hr he.1
      rw [← he.2, this]
  · rw [mem_insert1]
    exact .inr (List.mem_map.mpr ⟨r, hr, rfl⟩)

/-- A table of gases as the documentation describes it: every gas once, the land use row not among them, both
biomass burning rows there. -/
structure GasTable (rows : List GasUnits) : Prop where
  once : (rows.map (·.component)).Nodup
  lu : ∀ r ∈ rows, r.component ≠ "CO2_lu"
  oc : ∃ r ∈ rows, r.component = "BMB_AEROS_OC"
  bc : ∃ r ∈ rows, r.component = "BMB_AEROS_BC"

theorem unitsFromFrame_ok {rows : List GasUnits} (h : GasTable rows) : unitsFromFrame rows =
    .ok { components := insert1 (rows.map (·.component)) "CO2_lu"
          units := insert1 (rows.map (fun r => frameUnit r ++ " / yr")) "PgC / yr"
          concunits := insert1 (rows.map frameConcUnit) "ppm" } := by
  unfold unitsFromFrame
  obtain ⟨a, ha, ha'⟩ := h.oc
  obtain ⟨b, hb, hb'⟩ := h.bc
  rw [if_pos]
  rw [Bool.and_eq_true, List.any_eq_true, List.any_eq_true]
  exact ⟨⟨a, ha, by simpa using ha'⟩, ⟨b, hb, by simpa using hb'⟩⟩

/-- **C68**, the part that holds: the concentration unit reported for a gas is the one in its row, whether the table is
read from a file or handed over in memory (for gases with emissions); and the two emission units agree for nitrous oxide
in `Tg_N` and for the two biomass burning aerosols in `Tg`. What is missing: the other emission units. -/
theorem C68_partial {rows : List GasUnits} (h : GasTable rows) : ∃ m, unitsFromFrame rows = .ok m ∧
    ∀ r ∈ rows, r.em ≠ "X" →
      (r.conc ≠ "Tg_N" → r.conc ≠ "_" →
        unitOf (unitsFromFile rows).components (unitsFromFile rows).concunits r.component = .ok r.conc ∧
        unitOf m.components m.concunits r.component = .ok r.conc) ∧
      (r.component = "N2O" ∧ r.em = "Tg_N" ∨ r.component = "BMB_AEROS_OC" ∧ r.em = "Tg" ∨
        r.component = "BMB_AEROS_BC" ∧ r.em = "Tg" →
        unitOf (unitsFromFile rows).components (unitsFromFile rows).units r.component =
          unitOf m.components m.units r.component) := by
  refine ⟨_, unitsFromFrame_ok h, ?_⟩
  intro r hr hx
  have hr' : r ∈ rows.filter (fun r => r.em ≠ "X") := by
    rw [List.mem_filter]
    exact ⟨hr, by simpa using hx⟩
  have hd' : ((rows.filter (fun r => r.em ≠ "X")).map (·.component)).Nodup :=
    h.once.sublist ((List.filter_sublist).map _)
  refine ⟨?_, ?_⟩
  · intro h1 h2
    refine ⟨unitOf_row hr' hd' (h.lu r hr) _ _, ?_⟩
    rw [unitOf_row hr h.once (h.lu r hr)]
    unfold frameConcUnit
    simp only [if_neg h1, if_neg h2]
  · intro hc
    have e1 : unitOf (unitsFromFile rows).components (unitsFromFile rows).units r.component =
        .ok (fileUnit r.component r.em) := unitOf_row hr' hd' (h.lu r hr) (fun r => fileUnit r.component r.em) _
    rw [e1]
    refine Eq.symm ((unitOf_row hr h.once (h.lu r hr) (fun r => frameUnit r ++ " / yr") _).trans ?_)
    congr 1
    rcases hc with ⟨h1, h2⟩ | ⟨h1, h2⟩ | ⟨h1, h2⟩
    · unfold frameUnit fileUnit
      rw [h1, h2]
      simp
    · unfold frameUnit fileUnit
      have i1 : inStr "_" "Tg" = false := (inStr_lit _ _).trans (by decide +kernel)
      have i2 : replace "BMB_AEROS_OC" "-" "" = "BMB_AEROS_OC" := replace_lit (by decide +kernel)
      have i3 : replace "BMB_AEROS_OC" "BMB_AEROS_" "" = "OC" := replace_lit (by decide +kernel)
      have i4 : replace "Tg" "Tg" "TgOC" = "TgOC" := replace_lit (by decide +kernel)
      rw [h1, h2]
      simp [i1, i2, i3, i4]
    · unfold frameUnit fileUnit
      have i1 : inStr "_" "Tg" = false := (inStr_lit _ _).trans (by decide +kernel)
      have i2 : replace "BMB_AEROS_BC" "-" "" = "BMB_AEROS_BC" := replace_lit (by decide +kernel)
      have i3 : replace "BMB_AEROS_BC" "BMB_AEROS_" "" = "BC" := replace_lit (by decide +kernel)
      have i4 : replace "Tg" "Tg" "TgBC" = "TgBC" := replace_lit (by decide +kernel)
      rw [h1, h2]
      simp [i1, i2, i3, i4]

/-- Part of the default gas table. -/
def someGases : List GasUnits :=
  [⟨"CO2", "Pg_C", "ppm"⟩, ⟨"CH4", "Tg", "ppb"⟩, ⟨"N2O", "Tg_N", "ppb"⟩, ⟨"TROP_O3", "X", "-"⟩,
   ⟨"BMB_AEROS_BC", "Tg", "-"⟩, ⟨"BMB_AEROS_OC", "Tg", "-"⟩]

theorem someGases_table : GasTable someGases := by
  refine ⟨by decide +kernel, by decide +kernel, ?_, ?_⟩
  · exact ⟨⟨"BMB_AEROS_OC", "Tg", "-"⟩, by simp [someGases], rfl⟩
  · exact ⟨⟨"BMB_AEROS_BC", "Tg", "-"⟩, by simp [someGases], rfl⟩

/-- **C68** as coded fails for emission units: in a gas table with the default rows methane emissions are reported in
`TgCH4 / yr` if the table is a file and in `Tg / yr` if it is in memory; carbon dioxide emissions in `PgC / yr` and
`Pg_C / yr`. -/
theorem C68_units_false : GasTable someGases ∧ ∃ m, unitsFromFrame someGases = .ok m ∧
    unitOf (unitsFromFile someGases).components (unitsFromFile someGases).units "CH4" = .ok "TgCH4 / yr" ∧
    unitOf m.components m.units "CH4" = .ok "Tg / yr" ∧
    unitOf (unitsFromFile someGases).components (unitsFromFile someGases).units "CO2" = .ok "PgC / yr" ∧
    unitOf m.components m.units "CO2" = .ok "Pg_C / yr" := by
  have h := someGases_table
  have hd' : ((someGases.filter (fun r => r.em ≠ "X")).map (·.component)).Nodup :=
    h.once.sublist ((List.filter_sublist).map _)
  have m1 : (⟨"CH4", "Tg", "ppb"⟩ : GasUnits) ∈ someGases := by simp [someGases]
  have m2 : (⟨"CO2", "Pg_C", "ppm"⟩ : GasUnits) ∈ someGases := by simp [someGases]
  have m1' : (⟨"CH4", "Tg", "ppb"⟩ : GasUnits) ∈ someGases.filter (fun r => r.em ≠ "X") := by simp [someGases]
  have m2' : (⟨"CO2", "Pg_C", "ppm"⟩ : GasUnits) ∈ someGases.filter (fun r => r.em ≠ "X") := by simp [someGases]
  have i1 : inStr "_" "Tg" = false := (inStr_lit _ _).trans (by decide +kernel)
  have i2 : replace "CH4" "-" "" = "CH4" := replace_lit (by decide +kernel)
  have i3 : replace "CH4" "BMB_AEROS_" "" = "CH4" := replace_lit (by decide +kernel)
  have i4 : inStr "_" "Pg_C" = true := (inStr_lit _ _).trans (by decide +kernel)
  have i5 : replace "Pg_C" "_" "" = "PgC" := replace_lit (by decide +kernel)
  refine ⟨h, _, unitsFromFrame_ok h, ?_, ?_, ?_, ?_⟩
  · refine (unitOf_row m1' hd' (h.lu _ m1) (fun r => fileUnit r.component r.em) _).trans ?_
    simp [fileUnit, i1, i2, i3]
  · refine (unitOf_row m1 h.once (h.lu _ m1) (fun r => frameUnit r ++ " / yr") _).trans ?_
    simp [frameUnit]
  · refine (unitOf_row m2' hd' (h.lu _ m2) (fun r => fileUnit r.component r.em) _).trans ?_
    simp [fileUnit, i4, i5]
  · refine (unitOf_row m2 h.once (h.lu _ m2) (fun r => frameUnit r ++ " / yr") _).trans ?_
    simp [frameUnit]

/-- **C68** fails for every component without emissions (emission unit `X`): if the table is a file it has no unit, the lookup
raises `ValueError`; if the table is in memory it has the emission unit `X / yr` and the concentration unit of its row. -/
theorem C68_x_rows_false {rows : List GasUnits} (h : GasTable rows) {r : GasUnits} (hr : r ∈ rows) (hx : r.em = "X")
    (hb : r.component ≠ "BMB_AEROS_OC" ∧ r.component ≠ "BMB_AEROS_BC") (hc : r.conc ≠ "Tg_N" ∧ r.conc ≠ "_") :
    unitOf (unitsFromFile rows).components (unitsFromFile rows).units r.component = .error .valueError ∧
    unitOf (unitsFromFile rows).components (unitsFromFile rows).concunits r.component = .error .valueError ∧
    ∃ m, unitsFromFrame rows = .ok m ∧ unitOf m.components m.units r.component = .ok "X / yr" ∧
      unitOf m.components m.concunits r.component = .ok r.conc := by
  have hn : r.component ∉ (unitsFromFile rows).components := by
    unfold unitsFromFile
    simp only [mem_insert1]
    rintro (e | e)
    · exact h.lu r hr e
    · obtain ⟨q, hq, he⟩ := List.mem_map.1 e
      obtain ⟨hq1, hq2⟩ := List.mem_filter.1 hq
      have : q = r := List.inj_on_of_nodup_map h.once hq1 hr he
      subst this
      simp [hx] at hq2
  refine ⟨by unfold unitOf; rw [if_neg hn], by unfold unitOf; rw [if_neg hn], _, unitsFromFrame_ok h, ?_, ?_⟩
  · refine (unitOf_row hr h.once (h.lu r hr) (fun r => frameUnit r ++ " / yr") _).trans ?_
    unfold frameUnit
    simp [hx, hb.1, hb.2]
  · rw [unitOf_row hr h.once (h.lu r hr)]
    unfold frameConcUnit
    simp only [if_neg hc.1, if_neg hc.2]

/-- Tropospheric ozone in the default rows is such a component. -/
example : ∃ m, unitsFromFrame someGases = .ok m ∧ unitOf m.components m.units "TROP_O3" = .ok "X / yr" ∧
    unitOf (unitsFromFile someGases).components (unitsFromFile someGases).units "TROP_O3" = .error .valueError := by
  obtain ⟨h1, _, m, hm, h2, _⟩ := C68_x_rows_false someGases_table (r := ⟨"TROP_O3", "X", "-"⟩) (by simp [someGases]) rfl
    (by decide) (by decide)
  exact ⟨m, hm, h2, h1⟩

/-! ## The emission units of a gas file -/

theorem isSub_char (c : Char) : ∀ l : List Char, isSub [c] l = decide (c ∈ l) := by
  intro l
  induction l with
  | nil => simp [isSub]
  | cons a l ih =>
    unfold isSub
    rw [ih]
    by_cases h : c = a
    · subst h; simp
    · simp [h]

/-- Replacing one character by nothing leaves the others. -/
theorem replaceGo_char (c : Char) : ∀ l : List Char, replaceGo [c] [] 0 l = l.filter (fun x => x ≠ c) := by
  intro l
  induction l with
  | nil => rfl
  | cons a l ih =>
    unfold replaceGo
    by_cases h : c = a
    · subst h; simp [ih]
    · have h' : a ≠ c := fun e => h e.symm
      simp [h, h', ih]

/-- Nothing is replaced where a character of the pattern does not occur. -/
theorem replaceGo_missing {pat rep : List Char} {c : Char} (hc : c ∈ pat) : ∀ l : List Char, c ∉ l → replaceGo pat rep 0 l = l := by
  intro l
  induction l with
  | nil => intro _; rfl
  | cons a l ih =>
    intro h
    unfold replaceGo
    rw [if_neg, ih (fun e => h (List.mem_cons_of_mem _ e))]
    intro hp
    exact h ((List.isPrefixOf_iff_prefix.1 hp).subset hc)

/-- A word without a character. -/
def without (s : String) (c : Char) : String := String.ofList (s.toList.filter (fun x => x ≠ c))

/-- **C68**, the emission units of a gas file: nitrogen of nitrous oxide has a unit of its own; a unit with an underscore names
the element already and loses the underscore; to any other unit the name of the gas is added, without hyphens. -/
theorem C68_file_units {rows : List GasUnits} (hd : (rows.map (·.component)).Nodup) {r : GasUnits} (hr : r ∈ rows)
    (hx : r.em ≠ "X") (hlu : r.component ≠ "CO2_lu") :
    (r.component = "N2O" → r.em = "Tg_N" →
      unitOf (unitsFromFile rows).components (unitsFromFile rows).units r.component = .ok "TgN2ON / yr") ∧
    (¬ (r.component = "N2O" ∧ r.em = "Tg_N") → '_' ∈ r.em.toList →
      unitOf (unitsFromFile rows).components (unitsFromFile rows).units r.component = .ok (without r.em '_' ++ " / yr")) ∧
    ('_' ∉ r.em.toList → '_' ∉ r.component.toList →
      unitOf (unitsFromFile rows).components (unitsFromFile rows).units r.component =
        .ok (r.em ++ without r.component '-' ++ " / yr")) := by
  have hr' : r ∈ rows.filter (fun r => r.em ≠ "X") := by
    rw [List.mem_filter]
    exact ⟨hr, by simpa using hx⟩
  have hd' : ((rows.filter (fun r => r.em ≠ "X")).map (·.component)).Nodup :=
    hd.sublist ((List.filter_sublist).map _)
  have e1 : unitOf (unitsFromFile rows).components (unitsFromFile rows).units r.component =
      .ok (fileUnit r.component r.em) := unitOf_row hr' hd' hlu (fun r => fileUnit r.component r.em) _
  rw [e1]
  have hin : inStr "_" r.em = decide ('_' ∈ r.em.toList) := isSub_char '_' _
  refine ⟨fun h1 h2 => ?_, fun h1 h2 => ?_, fun h1 h2 => ?_⟩
  · unfold fileUnit
    rw [if_pos ⟨h1, h2⟩]
    rfl
  · unfold fileUnit
    rw [if_neg h1, hin, if_pos (by simpa using h2)]
    have : replace r.em "_" "" = without r.em '_' := by
      unfold replace without
      exact congrArg String.ofList (replaceGo_char '_' _)
    rw [this]
  · unfold fileUnit
    have hn : ¬ (r.component = "N2O" ∧ r.em = "Tg_N") := by
      rintro ⟨-, e⟩
      rw [e] at h1
      exact h1 (by decide)
    rw [if_neg hn, hin, if_neg (by simpa using h1)]
    have i1 : replace r.component "-" "" = without r.component '-' := by
      unfold replace without
      exact congrArg String.ofList (replaceGo_char '-' _)
    have i2 : replace (without r.component '-') "BMB_AEROS_" "" = without r.component '-' := by
      unfold replace
      rw [replaceGo_missing (c := '_') (by decide)]
      · exact String.ofList_toList
      · unfold without
        rw [String.toList_ofList]
        intro e
        exact h2 (List.mem_of_mem_filter e)
    rw [i1, i2]

/-- The three kinds of rows: nitrous oxide in `Tg_N`, sulfur in `Tg_S`, methane in `Tg`, and nitrous oxide in `Tg`. -/
def unitRows (n2o : String) : List GasUnits := [⟨"N2O", n2o, "ppb"⟩, ⟨"SO2", "Tg_S", "-"⟩, ⟨"HFC-23", "Gg", "ppt"⟩]

example : unitOf (unitsFromFile (unitRows "Tg_N")).components (unitsFromFile (unitRows "Tg_N")).units "N2O" = .ok "TgN2ON / yr" ∧
    unitOf (unitsFromFile (unitRows "Tg_N")).components (unitsFromFile (unitRows "Tg_N")).units "SO2" = .ok "TgS / yr" ∧
    unitOf (unitsFromFile (unitRows "Tg")).components (unitsFromFile (unitRows "Tg")).units "N2O" = .ok "TgN2O / yr" ∧
    unitOf (unitsFromFile (unitRows "Tg")).components (unitsFromFile (unitRows "Tg")).units "HFC-23" = .ok "GgHFC23 / yr" := by
  have hd : ∀ u, ((unitRows u).map (·.component)).Nodup := by intro u; simp [unitRows]
  refine ⟨?_, ?_, ?_, ?_⟩
  · exact (C68_file_units (hd _) (r := ⟨"N2O", "Tg_N", "ppb"⟩) (by simp [unitRows]) (by decide) (by decide)).1 rfl rfl
  · exact (C68_file_units (hd _) (r := ⟨"SO2", "Tg_S", "-"⟩) (by simp [unitRows]) (by decide) (by decide)).2.1
      (by decide) (by decide)
  · exact (C68_file_units (hd _) (r := ⟨"N2O", "Tg", "ppb"⟩) (by simp [unitRows]) (by decide) (by decide)).2.2
      (by decide) (by decide)
  · exact (C68_file_units (hd _) (r := ⟨"HFC-23", "Gg", "ppt"⟩) (by simp [unitRows]) (by decide) (by decide)).2.2
      (by decide) (by decide)

end Verif.Props
