import Verif.Lemmas.Repeated
import Verif.Lemmas.ClearWritten
import Verif.Props.Reload
import Verif.Props.Order

/-! Keys do not repeat in written documents, except for parameters that were read (C75). -/

namespace Verif
open Codec Spec

/-- **C75** for OpenAPI 3.0: what a writable value is written as has no key twice, if no field that repeats what
other fields say is filled in. -/
theorem C75_distinct30 (N : Nums) (ty : Ty) (v : Val) (h : Writable V30.table N ok30 ty v) (hd : Everywhere noDerived v)
    (j : Any) (hj : encode V30.table ty v = some j) : Distinct j := by
  have := writable_distinct (facts30 N) (fun h => absurd h (by decide +kernel)) h hd
  rwa [enc_of hj] at this

/-- **C75** for OpenAPI 3.1, which has no such fields. -/
theorem C75_distinct31 (N : Nums) (ty : Ty) (v : Val) (h : Writable V31.table N ok31 ty v)
    (j : Any) (hj : encode V31.table ty v = some j) : Distinct j := by
  have := writable_distinct (facts31 N) (fun _ => rfl) h (writable_fresh31 h)
  rwa [enc_of hj] at this

/-- **C75** for OpenAPI 3.0: nor does it have two spellings of the name of a field, wherever it is read as a struct. (Two
fields, or a field and an entry of a map next to it, might otherwise be taken for one another when it is read.) -/
theorem C75_spellings30 (N : Nums) (ty : Ty) (v : Val) (h : Writable V30.table N ok30 ty v) (hd : Everywhere noDerived v)
    (j : Any) (hj : encode V30.table ty v = some j) : ClearAs V30.table ty j := by
  have := (writable_clear (facts30 N) clear30 (fun h => absurd h (by decide +kernel)) h hd).clear
  rwa [enc_of hj] at this

/-- **C75** for OpenAPI 3.1. -/
theorem C75_spellings31 (N : Nums) (ty : Ty) (v : Val) (h : Writable V31.table N ok31 ty v)
    (j : Any) (hj : encode V31.table ty v = some j) : ClearAs V31.table ty j := by
  have := (writable_clear (facts31 N) clear31 (fun _ => rfl) h (writable_fresh31 h)).clear
  rwa [enc_of hj] at this

/-- **C75**: every parameter that was read from JSON as 3.0 is written, if it is written, with the key `in` twice. -/
theorem C75_repeated30 (N : Nums) (j j' : Any) (v : Val) (h : decode V30.table N (.named "Parameter") j = some v)
    (he : encode V30.table (.named "Parameter") v = some j') :
    ∃ M, j' = .obj M ∧ 2 ≤ (M.map Prod.fst).count "in" :=
  parameter_repeats h he

/-! ## Concrete cases -/

def noDerivedB (fs : List (String × Val)) : Bool := derived.all (fun go => isNilB (fieldIn fs go))

theorem noDerivedB_sound (fs : List (String × Val)) (h : noDerivedB fs = true) : noDerived fs := by
  intro go hgo
  exact isNilB_iff.1 (List.all_eq_true.1 h go hgo)

/-- The sample document of C35 meets the hypotheses. -/
theorem C75_case30 : Writable V30.table sampleNums ok30 (.named "Spec") sample30 ∧ Everywhere noDerived sample30 :=
  ⟨C35_case30, everywhereB_sound noDerivedB_sound (by decide +kernel)⟩

theorem C75_case31 : Writable V31.table sampleNums ok31 (.named "Spec") sample31 := C35_case31

/-- Only names of fields count: the keys of a map may differ in case only. -/
theorem C75_spellings_case : Writable V30.table sampleNums ok30 (.map .str) (.map [("name", .str "a"), ("Name", .str "b")]) ∧
    encode V30.table (.map .str) (.map [("name", .str "a"), ("Name", .str "b")]) =
      some (.obj [("name", .str "a"), ("Name", .str "b")]) ∧
    ¬Clear V30.table (.obj [("name", .str "a"), ("Name", .str "b")]) := by
  refine ⟨.map (by decide) ?_, by rfl, fun h => ?_⟩
  · intro k v hm
    simp only [List.mem_cons, Prod.mk.injEq, List.not_mem_nil, or_false] at hm
    rcases hm with ⟨_, rfl⟩ | ⟨_, rfl⟩ <;> exact .str _
  · exact absurd (h.1.2 "name" (by decide) "Name" (by decide) "name" (by decide +kernel) (by decide) (by decide +kernel)) (by decide)

/-- A parameter that is read, and what it is written as: `in`, `required` and `schema` are there twice. -/
theorem C75_parameter_case : ∃ v, decode V30.table sampleNums (.named "Parameter")
      (.obj [("name", .str "id"), ("in", .str "path"), ("required", .bool true), ("schema", .obj [("type", .str "string")])]) =
        some v ∧
    encode V30.table (.named "Parameter") v = some (.obj [("name", .str "id"), ("in", .str "path"), ("required", .bool true),
      ("schema", .obj [("type", .str "string")]), ("schema", .obj [("type", .str "string")]), ("in", .str "path"),
      ("required", .bool true)]) :=
  ⟨_, by rfl, by rfl⟩

end Verif
