import Verif.Model.Distribution
import Verif.Lemmas.Dict

/-!
# C46: configuration files round-trip
-/

namespace Verif.Props
open Verif.Py Verif.Model.Distribution

variable {F : Type}

theorem isNone_iff (v : JVal F) : v.isNone = true ↔ v = .null := by
  cases v <;> simp [JVal.isNone]

/-- C46: loading a file written by `write_configs_to_json` gives the written configurations and the
meta information passed to the call, whatever was in the file before and whatever would be
generated otherwise. -/
theorem C46_round_trip (fs : Files F) (l : List (JVal F)) (m0 m : JVal F) (name : String)
    (g : Except PyErr (JVal F)) :
    construct (writeConfigs fs ⟨.arr l, m0⟩ name m) name g = .ok ⟨.arr l, m⟩ := by
  unfold writeConfigs construct
  by_cases h : (m.isNone && m0.isNone) = true
  · rw [if_pos h]
    rw [Bool.and_eq_true, isNone_iff, isNone_iff] at h
    simp [Files.write, load, h.1]
  · rw [if_neg h]
    simp [Files.write, load, Dict.get?]

/-- C46: loading a file written by the configuration generator gives the generated configurations
and the meta information (a list-only file when there is none). -/
theorem C46_generated_round_trip (fs : Files F) (l : List (JVal F)) (m : JVal F) (name : String)
    (g : Except PyErr (JVal F)) :
    construct (writeSingle fs l (some name) m) name g = .ok ⟨.arr l, m⟩ := by
  unfold writeSingle construct
  by_cases h : m.isNone = true
  · simp only [h, if_true]
    rw [isNone_iff] at h
    simp [Files.write, load, h]
  · simp only [h]
    simp [Files.write, load, Dict.get?]

/-- C46: legacy list-only files load as configurations without meta information. -/
theorem C46_legacy (fs : Files F) (name : String) (l : List (JVal F)) (g : Except PyErr (JVal F))
    (h : fs name = some (.arr l)) : construct fs name g = .ok ⟨.arr l, .null⟩ := by
  unfold construct; rw [h]; rfl

/-- C46: a file that is neither a list nor an object with configurations is refused, never replaced
by freshly generated configurations. -/
theorem C46_rejects (fs : Files F) (name : String) (v : JVal F) (g : Except PyErr (JVal F))
    (h : fs name = some v) (h1 : ∀ l, v ≠ .arr l)
    (h2 : ∀ d, v = .obj d → "configurations" ∉ Dict.keys d) :
    construct fs name g = .error .valueError := by
  unfold construct
  rw [h]
  cases v with
  | arr l => exact absurd rfl (h1 l)
  | obj d =>
    have := (Dict.get?_eq_none_iff _ _).2 (h2 d rfl)
    simp [load, this]
  | _ => rfl

/-- C46: writing touches no other file. -/
theorem C46_other_files (fs : Files F) (r : DistRun F) (name : String) (m : JVal F) (n : String)
    (h : n ≠ name) : writeConfigs fs r name m n = fs n := by
  unfold writeConfigs
  split <;> simp [Files.write, h]

/-- C46 (partial): re-writing a loaded file and loading it again keeps configurations and meta
information *if the loaded meta information is passed explicitly*. -/
theorem C46_rewrite_partial (fs : Files F) (l : List (JVal F)) (m : JVal F) (name : String)
    (g : Except PyErr (JVal F)) :
    construct (writeConfigs fs ⟨.arr l, m⟩ name m) name g = .ok ⟨.arr l, m⟩ :=
  C46_round_trip fs l m m name g

/-- C46 fails for re-writing without passing it: a run loaded with meta information and written back
with the default argument loses it. -/
theorem C46_rewrite_false (fs : Files F) (l : List (JVal F)) (m : JVal F) (hm : m ≠ .null)
    (name : String) (g : Except PyErr (JVal F)) :
    construct (writeConfigs fs ⟨.arr l, m⟩ name .null) name g = .ok ⟨.arr l, .null⟩ ∧
    construct (writeConfigs fs ⟨.arr l, m⟩ name .null) name g ≠ .ok ⟨.arr l, m⟩ := by
  rw [C46_round_trip]
  refine ⟨rfl, fun h => hm ?_⟩
  simp only [Except.ok.injEq, DistRun.mk.injEq] at h
  exact h.2.symm

/-- A file with two configurations and meta information. -/
example (x : F) : construct (writeConfigs (fun _ => none)
    ⟨.arr [.obj [("Index", .str "0")], .obj [("Index", .str "1")]], .null⟩ "a.json"
      (.obj [("source", .num x)])) "a.json" (.error .other)
    = .ok ⟨.arr [.obj [("Index", .str "0")], .obj [("Index", .str "1")]],
        .obj [("source", .num x)]⟩ := C46_round_trip _ _ _ _ _ _

end Verif.Props
