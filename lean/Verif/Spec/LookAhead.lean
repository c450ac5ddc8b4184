import Verif.Model.Driver

/-!
# Specification: inputs that agree up to a year

`InputsUpTo y ref` says that two sets of inputs may differ only after year `y`, except that the
documented reference years are held fixed: the ozone precursors (`NOx`, `CO`, `NMVOC`) in 2000 and in
`ref`, and the methane concentration in `ref`.
-/

namespace Verif.Spec
open Verif.Py Verif.Model Verif.Model.Handler Verif.Model.Driver

/-- The cells of the emission table that may matter up to year `y`. -/
def EmisCell (y ref : Int) (c : String) (z : Int) : Prop :=
  z ≤ y ∨ (c ∈ ["NOx", "CO", "NMVOC"] ∧ (z = 2000 ∨ z = ref))

/-- The cells of the concentration table that may matter up to year `y`. -/
def ConcCell (y ref : Int) (c : String) (z : Int) : Prop := z ≤ y ∨ (c = "CH4" ∧ z = ref)

/-- Two frames of the same shape with equal cells where `E` holds. -/
structure FrameAgree {F : Type} (E : String → Int → Prop) (t t' : Frame F) : Prop where
  cols : t'.cols = t.cols
  idx : t'.idx = t.idx
  cell : ∀ c ∈ t.cols, ∀ z ∈ t.idx, E c z → t'.cell c z = t.cell c z

/-- Two frames with the same columns, and with the same rows and cells where `E` holds. -/
structure FrameUpTo {F : Type} (E : String → Int → Prop) (t t' : Frame F) : Prop where
  cols : t'.cols = t.cols
  idx : ∀ c z, E c z → (z ∈ t'.idx ↔ z ∈ t.idx)
  cell : ∀ c ∈ t.cols, ∀ z ∈ t.idx, E c z → t'.cell c z = t.cell c z

/-- The perturbation rows of one year, in order. -/
def rowsOf {F : Type} (rows : Option (List (PertRow F))) (z : Int) : List (PertRow F) :=
  (rows.getD []).filter (fun r => r.year = z)

/-- Two inputs that agree up to year `y` (and in the reference years). -/
structure InputsUpTo {F : Type} (y ref : Int) (i i' : Inputs F) : Prop where
  gas : i'.gas = i.gas
  concRun : i'.concRun = i.concRun
  natCh4 : FrameAgree (fun _ z => z ≤ y) i.natCh4 i'.natCh4
  natN2o : FrameAgree (fun _ z => z ≤ y) i.natN2o i'.natN2o
  concIn : FrameAgree (ConcCell y ref) i.concIn i'.concIn
  emis : FrameAgree (EmisCell y ref) i.emis i'.emis
  pertEm : ∀ z, z ≤ y → rowsOf i'.pertEm z = rowsOf i.pertEm z
  pertEmRef : ∀ c ∈ ["NOx", "CO", "NMVOC"], ∀ z, z = 2000 ∨ z = ref →
    (rowsOf i'.pertEm z).filter (fun r => r.component = c) =
      (rowsOf i.pertEm z).filter (fun r => r.component = c)
  pertForc : ∀ z, z ≤ y → rowsOf i'.pertForc z = rowsOf i.pertForc z

/-- The same of two inputs whose tables may also end in different years after `y`. -/
structure InputsLonger {F : Type} (y ref : Int) (i i' : Inputs F) : Prop where
  gas : i'.gas = i.gas
  concRun : i'.concRun = i.concRun
  natCh4 : FrameUpTo (fun _ z => z ≤ y) i.natCh4 i'.natCh4
  natN2o : FrameUpTo (fun _ z => z ≤ y) i.natN2o i'.natN2o
  concIn : FrameUpTo (ConcCell y ref) i.concIn i'.concIn
  emis : FrameUpTo (EmisCell y ref) i.emis i'.emis
  pertEm : ∀ z, z ≤ y → rowsOf i'.pertEm z = rowsOf i.pertEm z
  pertEmRef : ∀ c ∈ ["NOx", "CO", "NMVOC"], ∀ z, z = 2000 ∨ z = ref →
    (rowsOf i'.pertEm z).filter (fun r => r.component = c) =
      (rowsOf i.pertEm z).filter (fun r => r.component = c)
  pertForc : ∀ z, z ≤ y → rowsOf i'.pertForc z = rowsOf i.pertForc z

/-- Two series (rows of years from the first run year) that agree up to year `y`. -/
def RowsUpTo {α : Type} (first y : Int) (l l' : List α) : Prop :=
  ∀ n : Nat, first + n ≤ y → l'[n]? = l[n]?

/-- The forcing series of two drivers agree up to year `y`. -/
structure SeriesUpTo {F κ : Type} (y : Int) (d d' : Driver F κ) : Prop where
  nystart : d'.nystart = d.nystart
  nyend : d'.nyend = d.nyend
  feedback : d'.feedbackList = d.feedbackList
  sun : RowsUpTo d.nystart y d.sun d'.sun
  luc : RowsUpTo d.nystart y d.luc d'.luc
  volcN : RowsUpTo d.nystart y d.volcN d'.volcN
  volcS : RowsUpTo d.nystart y d.volcS d'.volcS

/-- The same of two drivers of which the second may run for more years. -/
structure SeriesLonger {F κ : Type} (y : Int) (d d' : Driver F κ) : Prop where
  nystart : d'.nystart = d.nystart
  nyend : d.nyend ≤ d'.nyend
  feedback : d'.feedbackList = d.feedbackList
  sun : RowsUpTo d.nystart y d.sun d'.sun
  luc : RowsUpTo d.nystart y d.luc d'.luc
  volcN : RowsUpTo d.nystart y d.volcN d'.volcN
  volcS : RowsUpTo d.nystart y d.volcS d'.volcS

/-- Prescribed forcing that agrees up to year `y`. -/
def ForcingUpTo {F : Type} (first y : Int) : Forcing F → Forcing F → Prop
  | .array xs, .array xs' => RowsUpTo first y xs xs'
  | .frame t, .frame t' => FrameAgree (fun _ z => z ≤ y) t t'
  | _, _ => False

/-- The same of prescribed forcing whose table may end in another year. -/
def ForcingLonger {F : Type} (first y : Int) : Forcing F → Forcing F → Prop
  | .array xs, .array xs' => RowsUpTo first y xs xs'
  | .frame t, .frame t' => FrameUpTo (fun _ z => z ≤ y) t t'
  | _, _ => False

/-- The row of one year in a table of named columns. -/
def columnsAt {F : Type} (cols : List (String × (Int → Option F))) (z : Int) : List (String × Option F) :=
  cols.map (fun c => (c.1, c.2 z))

end Verif.Spec
