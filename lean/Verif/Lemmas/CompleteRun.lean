import Verif.Lemmas.CompleteConstruct
import Verif.Props.C59

/-! # A year of a run on complete inputs succeeds -/

namespace Verif.Props
open Verif.Py Verif.Py.Dict Verif.Model Verif.Model.Handler Verif.Model.Driver Verif.Spec

section
variable {F κ τ : Type} [Add F] [Sub F] [Mul F] [Div F] [Neg F] [OfScientific F] [LT F] [DecidableLT F]
  [MathFn F]

/-- The numeric parameters the forcing reads. -/
def forcingPams : List String :=
  ["qbmb", "qo3", "qdirso2", "qindso2", "qbc", "qoc", "qh2o_ch4", "qnmvoc", "qnh3", "qnox"]

/-- Everything a year of a run reads is there. Not changed by a year. -/
structure Able (h : Handler F κ) (ns es ne ref : ℤ) (r : Bool) : Prop where
  order : ns ≤ ne
  start : r = false → ns < es
  years : h.years = pyRange ns (ne + 1)
  run : pamB h.pam "conc_run" = .ok r
  before : ∀ y, beforeStart h.pam y = .ok (decide (y < es))
  mode : ∃ v, h.pam.get? "lifetime_mode" = some v
  num : ∀ k ∈ forcingPams, ∃ v, pamF h.pam k = .ok v
  refYr : pamI h.pam "ref_yr" = .ok ref
  just : ∀ v, h.pam.get? "just_one" = some v → ∃ k, v = .str k ∧ k ∈ h.forcKeys
  concKeys : ∀ t ∈ h.concKeys, t = "TROP_O3" ∧ NoConc h.gas t ∨ t ∈ ["CO2", "CH4", "N2O"]
  mainConc : ∀ t ∈ ["CO2", "CH4", "N2O"], t ∈ h.concKeys
  mainForc : ∀ t ∈ ["CO2", "CH4", "N2O"], t ∈ h.forcKeys
  mainGas : ∀ t ∈ ["CO2", "CH4", "N2O"], HasConc h.gas t
  trop : "TROP_O3" ∈ h.forcKeys → "TROP_O3" ∈ h.concKeys
  forcKeys : ∀ t ∈ h.forcKeys, t ∉ ["CO2", "CH4", "N2O"] → t = "Total_forcing" ∧ h.gas.get? t = none ∨ NoConc h.gas t
  efficiency : ∀ t g, h.gas.get? t = some g → g.concUnit = "-" → isAerosol t = false →
    t ∉ ["LANDUSE", "TROP_O3"] → t ∈ h.forcKeys → isEq g.alpha 0.0 = true
  aerosolAlpha : ∀ t g, h.gas.get? t = some g → g.concUnit = "-" → isAerosol t = true → isEq g.alpha 0.0 = false →
    t ∈ h.emis.cols
  aerosolRef : ∀ t g sp, h.gas.get? t = some g → g.concUnit = "-" → isAerosol t = true → isEq g.alpha 0.0 = true →
    refEmissionSpecies.get? t = some sp → sp.1 ∈ h.emis.cols
  concRows : ∀ y, ns ≤ y → y ≤ ne → y ∈ h.concIn.idx
  concCols : ∀ t ∈ ["CO2", "CH4", "N2O"], t ∈ h.concIn.cols
  emisRows : ∀ y, ns ≤ y → y ≤ ne → y ∈ h.emis.idx
  emisCo2 : r = false → "CO2_FF" ∈ h.emis.cols ∧ "CO2_AFOLU" ∈ h.emis.cols
  emisGas : r = false → "CH4" ∈ h.emis.cols ∧ "N2O" ∈ h.emis.cols
  ozone : "TROP_O3" ∈ h.forcKeys → (∀ c ∈ ["NOx", "CO", "NMVOC"], c ∈ h.emis.cols) ∧ ref ∈ h.emis.idx ∧
    ref ∈ h.concIn.idx
  methane : r = false → (∀ c ∈ ["NOx", "CO", "NMVOC"], c ∈ h.emis.cols) ∧ (2000 : ℤ) ∈ h.emis.idx
  natural : r = false → "CH4" ∈ h.natCh4.cols ∧ "N2O" ∈ h.natN2o.cols ∧
    ∀ y, es ≤ y → y ≤ ne → y ∈ h.natCh4.idx ∧ y ∈ h.natN2o.idx
  tot : ∀ y, ns ≤ y → y ≤ ne → ∃ v, totVanilla h.prec y = .ok v

omit [Add F] [Sub F] [Mul F] [Div F] [Neg F] [OfScientific F] [LT F] [DecidableLT F] [MathFn F] in
theorem Same.unit {h h' : Handler F κ} (s : Same h h') {t : String} {g : Gas F} (e : h'.gas.get? t = some g) :
    ∃ g0, h.gas.get? t = some g0 ∧ g0.concUnit = g.concUnit ∧ g0.alpha = g.alpha := by
  obtain ⟨g0, h1, h2⟩ := s.gas_of_some e
  exact ⟨g0, h1, by rw [h2], by rw [h2]⟩

omit [Add F] [Sub F] [Mul F] [Div F] [Neg F] [OfScientific F] [LT F] [DecidableLT F] [MathFn F] in
theorem Same.noConc {h h' : Handler F κ} (s : Same h h') {t : String} (e : NoConc h.gas t) : NoConc h'.gas t := by
  obtain ⟨g, h1, h2⟩ := e
  obtain ⟨x, h3, -⟩ := s.gasSome t g h1
  exact ⟨_, h3, h2⟩

omit [Add F] [Sub F] [Mul F] [Div F] [Neg F] [OfScientific F] [LT F] [DecidableLT F] [MathFn F] in
theorem Same.hasConc {h h' : Handler F κ} (s : Same h h') {t : String} (e : HasConc h.gas t) : HasConc h'.gas t := by
  obtain ⟨g, h1, h2⟩ := e
  obtain ⟨x, h3, -⟩ := s.gasSome t g h1
  exact ⟨_, h3, h2⟩

theorem Able.same {h h' : Handler F κ} {ns es ne ref : ℤ} {r : Bool} (a : Able h ns es ne ref r) (s : Same h h') :
    Able h' ns es ne ref r where
  order := a.order
  start := a.start
  years := by rw [s.years]; exact a.years
  run := by rw [s.pam]; exact a.run
  before := by rw [s.pam]; exact a.before
  mode := by rw [s.pam]; exact a.mode
  num := by rw [s.pam]; exact a.num
  refYr := by rw [s.pam]; exact a.refYr
  just := by rw [s.pam, s.forcKeys]; exact a.just
  concKeys := by
    rw [s.concKeys]
    intro t ht
    rcases a.concKeys t ht with ⟨h1, h2⟩ | h1
    · exact Or.inl ⟨h1, Same.noConc s h2⟩
    · exact Or.inr h1
  mainConc := by rw [s.concKeys]; exact a.mainConc
  mainForc := by rw [s.forcKeys]; exact a.mainForc
  mainGas := fun t ht => Same.hasConc s (a.mainGas t ht)
  trop := by rw [s.forcKeys, s.concKeys]; exact a.trop
  forcKeys := by
    rw [s.forcKeys]
    intro t ht hm
    rcases a.forcKeys t ht hm with ⟨h1, h2⟩ | h1
    · exact Or.inl ⟨h1, s.gasNone _ h2⟩
    · exact Or.inr (Same.noConc s h1)
  efficiency := by
    rw [s.forcKeys]
    intro t g hg hu ha hn ht
    obtain ⟨g0, h1, h2, h3⟩ := Same.unit s hg
    rw [← h3]; exact a.efficiency t g0 h1 (h2.trans hu) ha hn ht
  aerosolAlpha := by
    rw [s.emis]
    intro t g hg hu ha he
    obtain ⟨g0, h1, h2, h3⟩ := Same.unit s hg
    exact a.aerosolAlpha t g0 h1 (h2.trans hu) ha (by rw [h3]; exact he)
  aerosolRef := by
    rw [s.emis]
    intro t g sp hg hu ha he
    obtain ⟨g0, h1, h2, h3⟩ := Same.unit s hg
    exact a.aerosolRef t g0 sp h1 (h2.trans hu) ha (by rw [h3]; exact he)
  concRows := by rw [s.concIn]; exact a.concRows
  concCols := by rw [s.concIn]; exact a.concCols
  emisRows := by rw [s.emis]; exact a.emisRows
  emisCo2 := by rw [s.emis]; exact a.emisCo2
  emisGas := by rw [s.emis]; exact a.emisGas
  ozone := by rw [s.emis, s.concIn, s.forcKeys]; exact a.ozone
  methane := by rw [s.emis]; exact a.methane
  natural := by rw [s.natCh4, s.natN2o]; exact a.natural
  tot := by rw [s.prec]; exact a.tot

/-- The concentrations of the years before `y` are there. -/
def FilledTo (h : Handler F κ) (ns y : ℤ) : Prop :=
  ∀ t ∈ h.concKeys, ∀ z, ns ≤ z → z < y → ∃ v, h.conc t z = some v

theorem Able.y0 {h : Handler F κ} {ns es ne ref : ℤ} {r : Bool} (a : Able h ns es ne ref r) : h.y0 = .ok ns := by
  have := a.order
  unfold Handler.y0
  rw [a.years, pyRange_cons (by omega)]

omit [Add F] [Sub F] [Mul F] [Div F] [Neg F] [OfScientific F] [LT F] [DecidableLT F] [MathFn F] in
theorem concAt_ok {h : Handler F κ} {t : String} {y : ℤ} (ht : t ∈ h.concKeys) (hc : ∃ v, h.conc t y = some v) :
    ∃ v, h.concAt t y = .ok v := by
  obtain ⟨v, hv⟩ := hc
  unfold Handler.concAt
  rw [if_pos ht, hv]
  exact ⟨v, rfl⟩

theorem fillOneRow_ok {h : Handler F κ} {y : ℤ} (avoid : List String)
    (hc : y ∈ h.concIn.idx) : ∃ h', fillOneRow h y avoid = .ok h' := by
  unfold fillOneRow
  obtain ⟨h', h1, -⟩ := foldlM_ok (f := fillStep y avoid) (fun b => b.concIn = h.concIn) h.concKeys h (by
    intro b t ht hb
    unfold fillStep
    by_cases c1 : t ∈ avoid
    · rw [if_pos c1]; exact ⟨b, rfl, hb⟩
    · rw [if_neg c1]
      by_cases c2 : t ∈ b.concIn.cols
      · rw [if_pos c2, at_ok c2 (by rw [hb]; exact hc), bind_ok]
        exact ⟨_, rfl, hb⟩
      · rw [if_neg c2]; exact ⟨_, rfl, hb⟩) rfl
  exact ⟨h', h1⟩

theorem co2Step_ok {cops : CarbonOps F κ} {P : κ → Prop} {h : Handler F κ} {ns es ne ref y : ℤ} {fb : Option (Dict F)}
    (a : Able h ns es ne ref false) (w : CarbonWorks cops P ns ne) (h1 : ns ≤ y) (h2 : y ≤ ne) (hP : P h.carbon) :
    ∃ h', co2Step cops y fb h = .ok h' ∧ P h'.carbon := by
  unfold co2Step co2Emissions
  obtain ⟨g, hg, -⟩ := a.mainGas "CO2" (by simp)
  rw [at_ok (a.emisCo2 rfl).1 (a.emisRows y h1 h2), bind_ok, at_ok (a.emisCo2 rfl).2 (a.emisRows y h1 h2), bind_ok,
    gasAt_eq_ok.2 hg, bind_ok, pure_ok, bind_ok]
  obtain ⟨r, hr, hPr⟩ := w h.carbon y (h.emis.cell "CO2_FF" y + h.emis.cell "CO2_AFOLU" y + g.natEm) fb h1 h2 hP
  rw [hr, bind_ok]
  exact ⟨_, rfl, hPr⟩

theorem setNatEm_ok {h : Handler F κ} {ns es ne ref y : ℤ} (a : Able h ns es ne ref false) {t : String}
    (ht : t = "CH4" ∨ t = "N2O") (h1 : es ≤ y) (h2 : y ≤ ne) : ∃ h', setNatEm h t y = .ok h' := by
  obtain ⟨n1, n2, n3⟩ := a.natural rfl
  unfold setNatEm
  rcases ht with rfl | rfl
  · obtain ⟨g, hg, -⟩ := a.mainGas "CH4" (by simp)
    rw [if_pos rfl, at_ok n1 (n3 y h1 h2).1, bind_ok, gasAt_eq_ok.2 hg, bind_ok]
    exact ⟨_, rfl⟩
  · obtain ⟨g, hg, -⟩ := a.mainGas "N2O" (by simp)
    rw [if_neg (by decide), if_pos rfl, at_ok n2 (n3 y h1 h2).2, bind_ok, gasAt_eq_ok.2 hg, bind_ok]
    exact ⟨_, rfl⟩

theorem decayRate_ok {h : Handler F κ} {ns es ne ref y : ℤ} (a : Able h ns es ne ref false) {t : String}
    (ht : t = "CH4" ∨ t = "N2O") (h1 : ns ≤ y) (h2 : y ≤ ne) (c : F) : ∃ q, decayRate h t c y = .ok q := by
  unfold decayRate
  rcases ht with rfl | rfl
  · obtain ⟨g, hg, -⟩ := a.mainGas "CH4" (by simp)
    simp only [gasAt_eq_ok.2 hg, bind_ok, if_true]
    unfold methaneLifetime
    obtain ⟨v, hv⟩ := a.mode
    obtain ⟨ho, h2000⟩ := a.methane rfl
    have hl : ∃ q, lifetimeMode h (1.0 / g.tau1) c y = .ok q := by
      unfold lifetimeMode Dict.getE
      rw [hv]
      simp only [bind_ok]
      by_cases m1 : Factory.isStr v "TAR" = true
      · rw [if_pos m1]
        unfold dlnOh
        have hy := a.emisRows y h1 h2
        rw [at_ok (ho "NOx" (by simp)) hy, bind_ok, at_ok (ho "NOx" (by simp)) h2000, bind_ok,
          at_ok (ho "CO" (by simp)) hy, bind_ok, at_ok (ho "CO" (by simp)) h2000, bind_ok,
          at_ok (ho "NMVOC" (by simp)) hy, bind_ok, at_ok (ho "NMVOC" (by simp)) h2000, bind_ok]
        exact ⟨_, rfl⟩
      · rw [if_neg m1]
        by_cases m2 : Factory.isStr v "CONSTANT_12" = true
        · rw [if_pos m2]; exact ⟨_, rfl⟩
        · rw [if_neg m2]
          by_cases m3 : Factory.isStr v "WIGLEY" = true
          · rw [if_pos m3]; exact ⟨_, rfl⟩
          · rw [if_neg m3]; exact ⟨_, rfl⟩
    obtain ⟨q, hq⟩ := hl
    rw [hq, bind_ok, gasAt_eq_ok.2 hg, bind_ok]
    exact ⟨_, rfl⟩
  · obtain ⟨g, hg, -⟩ := a.mainGas "N2O" (by simp)
    rw [gasAt_eq_ok.2 hg, bind_ok]
    simp only
    rw [if_neg (by decide)]
    exact ⟨_, rfl⟩

theorem otherStep_ok {h : Handler F κ} {ns es ne ref y : ℤ} (a : Able h ns es ne ref false) {t : String}
    (ht : t = "CH4" ∨ t = "N2O") (h0 : ns ≤ y) (h1 : es ≤ y) (h2 : y ≤ ne) (hf : FilledTo h ns y) :
    ∃ h', otherStep y h t = .ok h' := by
  have hm : t ∈ ["CO2", "CH4", "N2O"] := by rcases ht with rfl | rfl <;> simp
  have hcl : ∃ c, concLocal h t y = .ok c := by
    unfold concLocal
    rw [a.y0, bind_ok]
    by_cases hlt : ns < y
    · rw [if_pos hlt]
      exact concAt_ok (a.mainConc t hm) (hf t (a.mainConc t hm) (y - 1) (by omega) (by omega))
    · rw [if_neg hlt]
      exact ⟨_, at_ok (a.concCols t hm) (a.concRows y h0 h2)⟩
  obtain ⟨c, hc⟩ := hcl
  obtain ⟨b, hb⟩ := setNatEm_ok a ht h1 h2
  have ab := a.same (setNatEm_spec hb).1
  obtain ⟨q, hq⟩ := decayRate_ok ab ht h0 h2 c
  obtain ⟨g, hg, -⟩ := ab.mainGas t hm
  have he : t ∈ b.emis.cols := by
    rcases ht with rfl | rfl
    · exact (ab.emisGas rfl).1
    · exact (ab.emisGas rfl).2
  unfold otherStep
  rw [hc, bind_ok, hb, bind_ok, hq, bind_ok, gasAt_eq_ok.2 hg, bind_ok, at_ok he (ab.emisRows y h0 h2), bind_ok]
  exact ⟨_, rfl⟩

/-- A year of concentrations succeeds, and all concentrations of the year are there afterwards. -/
theorem emi2conc_ok {cops : CarbonOps F κ} {P : κ → Prop} {h : Handler F κ} {ns es ne ref y : ℤ} {r : Bool}
    (fb : Option (Dict F)) (a : Able h ns es ne ref r) (w : CarbonWorks cops P ns ne) (h1 : ns ≤ y) (h2 : y ≤ ne)
    (hP : P h.carbon) (hf : FilledTo h ns y) :
    ∃ h', emi2conc cops h y fb = .ok h' ∧ Same h h' ∧ P h'.carbon ∧ FilledTo h' ns (y + 1) := by
  unfold emi2conc
  rw [a.run, bind_ok]
  cases r with
  | true =>
    rw [if_pos rfl]
    obtain ⟨h', e⟩ := fillOneRow_ok [] (a.concRows y h1 h2)
    obtain ⟨s, -, hc, -, hv, -⟩ := fillOneRow_spec e
    refine ⟨h', e, s, by rw [hc]; exact hP, ?_⟩
    intro t ht z z1 z2
    rw [s.concKeys] at ht
    rw [hv]
    by_cases hz : z = y
    · rw [if_pos ⟨hz, ht, List.not_mem_nil⟩]; exact ⟨_, rfl⟩
    · rw [if_neg (fun x => hz x.1)]
      exact hf t ht z z1 (by omega)
  | false =>
    rw [if_neg (by decide), a.before, bind_ok]
    by_cases hes : y < es
    · rw [if_pos (by simpa using hes)]
      obtain ⟨b, hb, hPb⟩ := co2Step_ok (cops := cops) (fb := fb) a w h1 h2 hP
      obtain ⟨s, -⟩ := co2Step_spec hb
      have ab := a.same s
      obtain ⟨h', e⟩ := fillOneRow_ok ["CO2"] (ab.concRows y h1 h2)
      have hbe : beforeEmstart cops h y fb = .ok h' := by
        unfold beforeEmstart
        rw [hb, bind_ok, if_pos (ab.mainConc _ (by simp)), e]
      obtain ⟨-, s', -, -, ⟨em, q, -, -, -, hco2⟩, hv, -⟩ := beforeEmstart_spec hbe
      refine ⟨h', hbe, s', by rw [(fillOneRow_spec e).2.2.1]; exact hPb, ?_⟩
      intro t ht z z1 z2
      rw [s'.concKeys] at ht
      by_cases hz : t = "CO2" ∧ z = y
      · rw [hz.1, hz.2]; exact ⟨_, hco2⟩
      · rw [hv t z (by by_contra hh; rw [not_or, not_not, not_not] at hh; exact hz hh)]
        by_cases hzy : z = y
        · rw [if_pos ⟨hzy, ht⟩]; exact ⟨_, rfl⟩
        · rw [if_neg (fun x => hzy x.1)]
          exact hf t ht z z1 (by omega)
    · rw [if_neg (by simpa using hes)]
      have hbase : FilledTo (addRowOfZeros h y) ns (y + 1) := by
        intro t ht z z1 z2
        unfold addRowOfZeros
        simp only
        by_cases hz : z = y
        · rw [if_pos ⟨hz, ht⟩]; exact ⟨_, rfl⟩
        · rw [if_neg (fun x => hz x.1)]
          exact hf t ht z z1 (by omega)
      obtain ⟨h', e, s, hP', hf'⟩ := foldlM_ok (f := tracerStep cops y fb)
        (fun b => Same h b ∧ P b.carbon ∧ FilledTo b ns (y + 1)) h.concKeys (addRowOfZeros h y) (by
          rintro b t ht ⟨s, hPb, hfb⟩
          have ab := a.same s
          have hx : ∃ b', tracerStep cops y fb b t = .ok b' ∧ P b'.carbon := by
            unfold tracerStep
            rcases ab.concKeys t (by rw [s.concKeys]; exact ht) with ⟨-, g, hg, hu⟩ | hm
            · rw [gasAt_eq_ok.2 hg, bind_ok, if_pos hu]
              exact ⟨b, rfl, hPb⟩
            · obtain ⟨g, hg, hu⟩ := ab.mainGas t hm
              rw [gasAt_eq_ok.2 hg, bind_ok, if_neg hu]
              by_cases hco2 : t = "CO2"
              · rw [if_pos hco2]
                exact co2Step_ok ab w h1 h2 hPb
              · rw [if_neg hco2]
                have ht' : t = "CH4" ∨ t = "N2O" := by
                  simp only [List.mem_cons, List.not_mem_nil, or_false] at hm
                  exact hm.resolve_left hco2
                obtain ⟨b', hb'⟩ := otherStep_ok ab ht' h1 (by omega) h2
                  (fun t ht z z1 z2 => hfb t ht z z1 (by omega))
                exact ⟨b', hb', by rw [(otherStep_spec hb').2.2.1]; exact hPb⟩
          obtain ⟨b', hb', hPb'⟩ := hx
          obtain ⟨s', -, -, -, hc⟩ := tracerStep_frame hb'
          refine ⟨b', hb', s.trans s', hPb', ?_⟩
          intro t' ht' z z1 z2
          by_cases hz : t' = t ∧ z = y
          · obtain ⟨rfl, rfl⟩ := hz
            obtain ⟨g, -, ⟨-, rfl⟩ | ⟨-, rfl, e⟩ | ⟨-, -, e⟩⟩ := tracerStep_spec hb'
            · exact hfb _ ht' _ z1 z2
            · obtain ⟨-, -, -, em, q, -, -, -, hv⟩ := co2Step_spec e
              rw [hv, if_pos ⟨rfl, rfl⟩]; exact ⟨_, rfl⟩
            · obtain ⟨-, -, -, -, cl, q, em, g', -, -, -, -, hv⟩ := otherStep_spec e
              rw [hv, if_pos ⟨rfl, rfl⟩]; exact ⟨_, rfl⟩
          · rw [hc t' z (by by_contra hh; rw [not_or, not_not, not_not] at hh; exact hz hh)]
            exact hfb t' (by rw [← s'.concKeys]; exact ht') z z1 z2)
        ⟨same_addRowOfZeros h y, hP, hbase⟩
      exact ⟨h', e, s, hP', hf'⟩

theorem index_ok {h : Handler F κ} {ns es ne ref y : ℤ} {r : Bool} (a : Able h ns es ne ref r) (h1 : ns ≤ y)
    (h2 : y ≤ ne) : h.index y = .ok (y - ns).toNat := by
  unfold Handler.index
  rw [a.y0, bind_ok, if_neg (by omega), a.years, pyRange_length, if_neg (by omega)]

theorem threeMain_ok {h : Handler F κ} {ns es ne ref y : ℤ} {r : Bool} (a : Able h ns es ne ref r) (h1 : ns ≤ y)
    (h2 : y ≤ ne) (hf : FilledTo h ns (y + 1)) : ∃ b, threeMain h y = .ok b ∧ b.conc = h.conc := by
  have hc : ∀ t ∈ ["CO2", "CH4", "N2O"], ∀ z, ns ≤ z → z ≤ y → ∃ v, h.concAt t z = .ok v :=
    fun t ht z z1 z2 => concAt_ok (a.mainConc t ht) (hf t (a.mainConc t ht) z z1 (by omega))
  obtain ⟨n0, hn0⟩ := hc "N2O" (by simp) ns (le_refl _) h1
  obtain ⟨n, hn⟩ := hc "N2O" (by simp) y h1 (le_refl _)
  obtain ⟨c0, hc0⟩ := hc "CO2" (by simp) ns (le_refl _) h1
  obtain ⟨c, hc'⟩ := hc "CO2" (by simp) y h1 (le_refl _)
  obtain ⟨m0, hm0⟩ := hc "CH4" (by simp) ns (le_refl _) h1
  obtain ⟨m, hm⟩ := hc "CH4" (by simp) y h1 (le_refl _)
  obtain ⟨gc, hgc, -⟩ := a.mainGas "CO2" (by simp)
  obtain ⟨gn, hgn, -⟩ := a.mainGas "N2O" (by simp)
  obtain ⟨gm, hgm, -⟩ := a.mainGas "CH4" (by simp)
  have hk : ∀ t ∈ ["CO2", "CH4", "N2O"], needKey h.forcKeys t = .ok () := by
    intro t ht
    unfold needKey
    rw [if_pos (a.mainForc t ht)]
  unfold threeMain
  rw [a.y0, bind_ok, hn0, bind_ok, hn, bind_ok, hc0, bind_ok, hc', bind_ok, hm0, bind_ok, hm, bind_ok,
    gasAt_eq_ok.2 hgc, bind_ok, gasAt_eq_ok.2 hgn, bind_ok, gasAt_eq_ok.2 hgm, bind_ok]
  simp only
  rw [index_ok a h1 h2, bind_ok, hk "CO2" (by simp), bind_ok, hk "CH4" (by simp), bind_ok, hk "N2O" (by simp), bind_ok]
  exact ⟨_, rfl, rfl⟩

theorem aerosolForcing_ok {h : Handler F κ} {ns es ne ref y : ℤ} {r : Bool} (a : Able h ns es ne ref r) (h1 : ns ≤ y)
    (h2 : y ≤ ne) {t : String} {g : Gas F} (hg : h.gas.get? t = some g) (hu : g.concUnit = "-")
    (ha : isAerosol t = true) : ∃ q, aerosolForcing h y t = .ok q := by
  unfold aerosolForcing
  rw [a.y0, bind_ok, gasAt_eq_ok.2 hg, bind_ok]
  have hy := a.emisRows y h1 h2
  have hy0 := a.emisRows ns (le_refl _) a.order
  cases hal : isEq g.alpha 0.0 with
  | false =>
    have hcol := a.aerosolAlpha t g hg hu ha hal
    rw [Bool.not_false, if_pos rfl, at_ok hcol hy, bind_ok, at_ok hcol hy0, bind_ok]
    exact ⟨_, rfl⟩
  | true =>
    rw [Bool.not_true, if_neg (by decide)]
    cases hsp : refEmissionSpecies.get? t with
    | none => exact ⟨_, rfl⟩
    | some sp =>
      have hcol := a.aerosolRef t g sp hg hu ha hal hsp
      obtain ⟨q, hq⟩ := a.num sp.2 (by
        have := Dict.mem_of_get? hsp
        unfold refEmissionSpecies at this
        simp only [List.mem_cons, List.not_mem_nil, or_false, Prod.mk.injEq] at this
        unfold forcingPams
        rcases this with h | h | h | h | h | h | h | h <;> rw [h.2] <;> simp)
      simp only
      rw [at_ok hcol hy, bind_ok, at_ok hcol hy0, bind_ok, hq, bind_ok]
      exact ⟨_, rfl⟩

/-- The concentrations in the accumulator are still there. -/
def AccFilled (h : Handler F κ) (b : Acc F) (ns y : ℤ) : Prop :=
  ∀ t ∈ h.concKeys, ∀ z, ns ≤ z → z ≤ y → ∃ v, b.conc t z = some v

theorem accConc_ok {h : Handler F κ} {b : Acc F} {ns y z : ℤ} (hf : AccFilled h b ns y) {t : String}
    (ht : t ∈ h.concKeys) (z1 : ns ≤ z) (z2 : z ≤ y) : ∃ v, accConc h b t z = .ok v := by
  obtain ⟨v, hv⟩ := hf t ht z z1 z2
  unfold accConc Handler.concAt
  simp only
  rw [if_pos ht, hv]
  exact ⟨v, rfl⟩

theorem tropO3Forcing_ok {h : Handler F κ} {b : Acc F} {ns es ne ref y : ℤ} {r : Bool} (a : Able h ns es ne ref r)
    (h1 : ns ≤ y) (h2 : y ≤ ne) (hf : AccFilled h b ns y) (hk : "TROP_O3" ∈ h.forcKeys) :
    ∃ q, tropO3Forcing h b y = .ok q ∧ ∀ t ∈ h.concKeys, ∀ z, ns ≤ z → z ≤ y → ∃ v, q.2 t z = some v := by
  obtain ⟨ho, he, hc⟩ := a.ozone hk
  have hy := a.emisRows y h1 h2
  obtain ⟨m, hm⟩ := accConc_ok hf (a.mainConc "CH4" (by simp)) h1 (le_refl y)
  have hv : ∃ v, tropO3Conc h b y = .ok v := by
    unfold tropO3Conc
    rw [a.refYr, bind_ok, hm, bind_ok, at_ok (a.concCols "CH4" (by simp)) hc, bind_ok,
      at_ok (ho "NOx" (by simp)) hy, bind_ok, at_ok (ho "NOx" (by simp)) he, bind_ok,
      at_ok (ho "CO" (by simp)) hy, bind_ok, at_ok (ho "CO" (by simp)) he, bind_ok,
      at_ok (ho "NMVOC" (by simp)) hy, bind_ok, at_ok (ho "NMVOC" (by simp)) he, bind_ok]
    exact ⟨_, rfl⟩
  obtain ⟨v, hv⟩ := hv
  have hn : needKey h.concKeys "TROP_O3" = .ok () := by
    unfold needKey
    rw [if_pos (a.trop hk)]
  have hf2 : AccFilled h { b with conc := fun t z => if t = "TROP_O3" ∧ z = y then some v else b.conc t z } ns y := by
    intro t ht z z1 z2
    simp only
    by_cases hz : t = "TROP_O3" ∧ z = y
    · rw [if_pos hz]; exact ⟨_, rfl⟩
    · rw [if_neg hz]; exact hf t ht z z1 z2
  obtain ⟨v0, hv0⟩ := accConc_ok hf2 (a.trop hk) (le_refl ns) h1
  obtain ⟨q, hq⟩ := a.num "qo3" (by simp [forcingPams])
  unfold tropO3Forcing
  rw [a.y0, bind_ok, hv, bind_ok, hn, bind_ok]
  simp only
  rw [hv0, bind_ok, hq, bind_ok]
  by_cases c : isEq v0 30.0 = true
  · rw [if_pos c]; exact ⟨_, rfl, hf2⟩
  · rw [if_neg c]; exact ⟨_, rfl, hf2⟩

theorem tracerForcing_ok {h : Handler F κ} {b : Acc F} {ns es ne ref y : ℤ} {r : Bool} (a : Able h ns es ne ref r)
    (h1 : ns ≤ y) (h2 : y ≤ ne) (hf : AccFilled h b ns y) (luc : F) (i : ℕ) {t : String} (ht : t ∈ h.forcKeys)
    (hm : t ∉ ["CO2", "CH4", "N2O"]) :
    ∃ q, tracerForcing h y luc b i t = .ok q ∧ ∀ t ∈ h.concKeys, ∀ z, ns ≤ z → z ≤ y → ∃ v, q.2 t z = some v := by
  unfold tracerForcing
  by_cases c1 : t = "LANDUSE"
  · rw [if_pos c1]; exact ⟨_, rfl, hf⟩
  rw [if_neg c1]
  rcases a.forcKeys t ht hm with ⟨rfl, hnone⟩ | ⟨g, hg, hu⟩
  · have e1 : isAerosol "Total_forcing" = false := by decide +kernel
    have e2 : hasAlpha h "Total_forcing" = false := by unfold hasAlpha; rw [hnone]
    rw [e1, e2, if_neg (by decide), if_neg (by decide), if_neg (by decide), if_neg (by decide)]
    exact ⟨_, rfl, hf⟩
  · by_cases c2 : isAerosol t = true
    · rw [if_pos c2]
      obtain ⟨q, hq⟩ := aerosolForcing_ok a h1 h2 hg hu c2
      rw [hq, bind_ok]
      exact ⟨_, rfl, hf⟩
    rw [if_neg c2]
    rw [Bool.not_eq_true] at c2
    by_cases c3 : hasAlpha h t = true
    · rw [if_pos c3]
      have htrop : t = "TROP_O3" := by
        by_contra hne
        have := a.efficiency t g hg hu c2 (by simp [c1, hne]) ht
        unfold hasAlpha at c3
        rw [hg] at c3
        simp only [this, Bool.not_true, Bool.false_eq_true] at c3
      subst htrop
      have hk := a.trop ht
      obtain ⟨v, hv⟩ := accConc_ok hf hk h1 (le_refl y)
      obtain ⟨v0, hv0⟩ := accConc_ok hf hk (le_refl ns) h1
      rw [a.y0, bind_ok, hv, bind_ok, hv0, bind_ok, gasAt_eq_ok.2 hg, bind_ok]
      exact ⟨_, rfl, hf⟩
    rw [if_neg c3]
    by_cases c4 : t = "TROP_O3"
    · rw [if_pos c4]
      subst c4
      obtain ⟨q, hq, hq2⟩ := tropO3Forcing_ok a h1 h2 hf ht
      rw [hq, bind_ok, gasAt_eq_ok.2 hg, bind_ok]
      exact ⟨_, rfl, hq2⟩
    rw [if_neg c4]
    by_cases c5 : t = "STRAT_H2O"
    · rw [if_pos c5]
      obtain ⟨q, hq⟩ := a.num "qh2o_ch4" (by simp [forcingPams])
      rw [hq, bind_ok, gasAt_eq_ok.2 hg, bind_ok]
      exact ⟨_, rfl, hf⟩
    · rw [if_neg c5]; exact ⟨_, rfl, hf⟩

/-- The forcing of a year succeeds, and the concentrations of all years up to it are still there. -/
theorem conc2forc_ok {h : Handler F κ} {ns es ne ref y : ℤ} {r : Bool} (luc sun : F) (a : Able h ns es ne ref r)
    (h1 : ns ≤ y) (h2 : y ≤ ne) (hf : FilledTo h ns (y + 1)) :
    ∃ q, conc2forc h y luc sun = .ok q ∧ Same h q.2 ∧ q.2.carbon = h.carbon ∧ FilledTo q.2 ns (y + 1) := by
  obtain ⟨b, hb, hbc⟩ := threeMain_ok a h1 h2 hf
  have hbf : AccFilled h b ns y := by
    intro t ht z z1 z2
    rw [hbc]; exact hf t ht z z1 (by omega)
  obtain ⟨c, hc, hcf⟩ := foldlM_ok (f := forcStep h y luc (y - ns).toNat) (fun b => AccFilled h b ns y) h.forcKeys b (by
    intro b t ht hbf
    unfold forcStep
    by_cases hm : t ∈ ["CO2", "N2O", "CH4"]
    · rw [if_pos hm]; exact ⟨b, rfl, hbf⟩
    · rw [if_neg hm]
      obtain ⟨q, hq, hq2⟩ := tracerForcing_ok a h1 h2 hbf luc (y - ns).toNat ht (by
        simp only [List.mem_cons, List.not_mem_nil, or_false] at hm ⊢
        intro hh
        apply hm
        rcases hh with hh | hh | hh
        · exact Or.inl hh
        · exact Or.inr (Or.inr hh)
        · exact Or.inr (Or.inl hh))
      rw [hq, bind_ok]
      exact ⟨_, rfl, hq2⟩) hbf
  obtain ⟨v, hv⟩ := a.tot y h1 h2
  have key : ∃ q, conc2forc h y luc sun = .ok q ∧ q.2.conc = c.conc := by
    unfold conc2forc
    rw [hb, bind_ok, a.y0, bind_ok, index_ok a h1 h2, bind_ok, hc, bind_ok]
    unfold addVanilla
    rw [hv, bind_ok, pure_ok, bind_ok]
    unfold applyJustOne
    cases hj : h.pam.get? "just_one" with
    | none =>
      refine ⟨_, rfl, ?_⟩
      simp only [finishForc]
      unfold addPert
      cases h.pert <;> rfl
    | some v =>
      obtain ⟨k, rfl, hk⟩ := a.just v hj
      simp only [justOneKey]
      rw [if_pos hk, bind_ok, pure_ok, bind_ok]
      refine ⟨_, rfl, ?_⟩
      simp only [finishForc]
      unfold addPert
      cases h.pert <;> rfl
  obtain ⟨q, hq, hqc⟩ := key
  obtain ⟨i, -, s, hcar, -⟩ := conc2forc_frame hq
  refine ⟨q, hq, s, hcar, ?_⟩
  intro t ht z z1 z2
  rw [hqc]
  exact hcf t (by rw [← s.concKeys]; exact ht) z z1 (by omega)

/-- The loop of a run succeeds. -/
theorem years_ok {cops : CarbonOps F κ} {tops : ThermalOps F τ} {P : κ → Prop} {d : Driver F κ} {p : RunPams F}
    {es ref : ℤ} {r : Bool} (w : CarbonWorks cops P d.nystart d.nyend) (tw : ThermalWorks tops p.udm)
    (sr : CompleteSeries d) {h g : Handler F κ} (hd : d.source = .handler h)
    (hg : resetWithNewPams cops h p.emiconc p.carbon = .ok g) (a : Able g d.nystart es d.nyend ref r) (hP : P g.carbon) :
    ∃ d1 t h1, run cops tops d p = .ok (d1, t) ∧ d1.source = .handler h1 ∧ P h1.carbon ∧
      d1 = { d with source := d1.source, results := d1.results } := by
  obtain ⟨Q, ⟨t0, hc, hQ0⟩, hQf, hb⟩ := tw
  have hord := a.order
  obtain ⟨r0, hr0⟩ : ∃ r0, initialiseOutputArrays tops d.nystart d.nyend d.results = .ok r0 := by
    unfold initialiseOutputArrays
    rw [if_neg (by omega)]
    exact ⟨_, rfl⟩
  have hstart : startRun cops tops d p =
      .ok { thermal := t0, values := none, source := .handler g, results := r0 } := by
    unfold startRun
    rw [hr0, bind_ok, hc, bind_ok, hd]
    unfold resetSource
    simp only
    rw [hg, bind_ok]
    rfl
  obtain ⟨hsun, hluc, hvn, hvs, hmon⟩ := sr
  obtain ⟨s, hs, h1, hsrc, hP1⟩ : ∃ s, (pyRange d.nystart (d.nyend + 1)).foldlM (yearStep cops tops d)
      { thermal := t0, values := none, source := .handler g, results := r0 } = .ok s ∧
      ∃ h1, s.source = .handler h1 ∧ P h1.carbon := by
    have key : ∀ (n : ℕ) (y : ℤ) (s : RunState F κ τ) (h : Handler F κ), (d.nyend + 1 - y).toNat = n →
        d.nystart ≤ y → s.source = .handler h → Q s.thermal → Same g h → P h.carbon → FilledTo h d.nystart y →
        (∀ o ∈ tops.outputs.map Prod.fst ++ forcOutputList,
          len s.results o = some (d.nyend - d.nystart + 1).toNat) →
        ∃ s', (pyRange y (d.nyend + 1)).foldlM (yearStep cops tops d) s = .ok s' ∧
          ∃ h1, s'.source = .handler h1 ∧ P h1.carbon := by
      intro n
      induction n with
      | zero =>
        intro y s h hn hy hsrc hQ hsame hPh hf hl
        exact ⟨s, by rw [pyRange_empty (by omega)]; rfl, h, hsrc, hPh⟩
      | succ n ih =>
        intro y s h hn hy hsrc hQ hsame hPh hf hl
        have ah := a.same hsame
        obtain ⟨h2, e2, s2, hP2, hf2⟩ := emi2conc_ok (cops := cops) (feedbackDict d.feedbackList s.values) ah w hy
          (by omega) hPh hf
        obtain ⟨luc, hluc'⟩ := rowOf_exists (l := d.luc) (i := y - d.nystart) (by omega) (by omega)
        obtain ⟨sun, hsun'⟩ := rowOf_exists (l := d.sun) (i := y - d.nystart) (by omega) (by omega)
        obtain ⟨q, e3, s3, hcar, hf3⟩ := conc2forc_ok luc sun (ah.same s2) hy (by omega) hf2
        obtain ⟨vn, hn'⟩ := rowOf_exists (l := d.volcN) (i := y - d.nystart) (by omega) (by omega)
        obtain ⟨vs, hv'⟩ := rowOf_exists (l := d.volcS) (i := y - d.nystart) (by omega) (by omega)
        obtain ⟨m1, m2⟩ := hmon _ _ _ (rowOf_eq_ok.1 hn').2 (rowOf_eq_ok.1 hv').2
        obtain ⟨values, t', hb', hQ', hk⟩ := hb (tops.setFeedback s.thermal q.1.wAero) q.1.nh q.1.sh vn vs
          (hQf _ _ hQ) m1 m2
        obtain ⟨r', hr', hl'⟩ := addYearData_ok (tops := tops) (d := d) (r := s.results) (values := values)
          q.1.tot (index := y - d.nystart) (n := (d.nyend - d.nystart + 1).toNat) (by omega) (by omega) hk hl
          (by omega) (by omega) (by omega)
        have hstep : yearStep cops tops d s y =
            .ok { thermal := t', values := some values, source := .handler q.2, results := r' } := by
          unfold yearStep yearForcing
          rw [hsrc]
          simp only [e2, bind_ok, hluc', hsun', e3, pure_ok, hn', hv', hb', hr']
        obtain ⟨s', h4, h5⟩ := ih (y + 1)
          { thermal := t', values := some values, source := .handler q.2, results := r' } q.2 (by omega) (by omega) rfl hQ'
          ((hsame.trans s2).trans s3)
          (by rw [hcar]; exact hP2) hf3 (fun o ho => (hl' o).trans (hl o ho))
        exact ⟨s', by rw [pyRange_cons (by omega)]; exact foldlM_cons_ok.2 ⟨_, hstep, h4⟩, h5⟩
    refine key _ _ _ g rfl (le_refl _) rfl hQ0 (Same.refl g) hP ?_ ?_
    · intro t _ z z1 z2; omega
    · intro o ho
      unfold len
      rw [(initialise_spec hr0).2 o ho, Option.map_some, List.length_replicate]
  refine ⟨{ d with source := s.source, results := s.results }, s.thermal, h1, ?_, hsrc, hP1, rfl⟩
  unfold run
  rw [hstart, bind_ok, hs, bind_ok]
  rfl

end
end Verif.Props
