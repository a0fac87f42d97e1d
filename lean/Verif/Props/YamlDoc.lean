import Verif.Lemmas.YamlDoc
import Verif.Props.RoundTrip
import Verif.Props.Order
import Verif.Props.Distinct

/-! Documents can be written as YAML and read again (C76). -/

namespace Verif
open Codec Spec

/-- What is read as a document is an object. -/
theorem spec_obj {T : Table} {N : Nums} (hT : Ranked T) {s : Struct} (hn : GoMap.get? T "Spec" = some (.struct s))
    (hr : "openapi" ∈ s.require) {j : Any} {w : Val} (h : decode T N (.named "Spec") j = some w) : ∃ ms, j = .obj ms := by
  obtain ⟨_, _, _, _, _, _, _, _, hc, _⟩ := (decode_struct_some hT hn).1 h
  have := (rawChecks_iff.1 hc).1 _ hr
  cases j with
  | obj ms => exact ⟨ms, rfl⟩
  | _ => simp [membersOf, hasKey] at this

theorem yaml_document {T : Table} {N : Nums} {Y : YamlLib} {sprint : Yv → String} {o : YOrder} {sj : Any → Option Any}
    {Back : String → String → Prop} (hT : Ranked T) {s : Struct} (hs : GoMap.get? T "Spec" = some (.struct s))
    (hr : "openapi" ∈ s.require) {v : Val} {j : Any} {u : Val}
    (hj : encode T (.named "Spec") v = some j) (hu : decode T N (.named "Spec") j = some u) (hc : ClearAs T (.named "Spec") j)
    (hn : ∀ lit ∈ literals j, Survives N Back lit)
    (hY : ∀ items, decodeAny N j = some (.obj items) → Faithful Y sprint sj Back items) :
    ∃ text w, marshalYAML T N Y v = some text ∧ unmarshalYAML T N Y sprint o sj text = some w ∧ ReorderedVal u w := by
  obtain ⟨ms, rfl⟩ := spec_obj hT hs hr hu
  obtain ⟨text, h1, h2⟩ := yaml_back (o := o) hj hc hn hY
  rw [hu] at h2
  cases h : unmarshalYAML T N Y sprint o sj text with
  | none => rw [h] at h2; exact False.elim h2
  | some w => rw [h] at h2; exact ⟨text, w, h1, h, h2⟩

/-- **C76** for OpenAPI 3.0: a document that can be written as JSON and read again (C35) can be written as YAML and
read again, with the same result up to the order of map entries, for every order in which Go visits maps. This needs
that the YAML library reads what it wrote, that the numbers of the document survive `float64`, and that no object of
the written document has a key twice or two spellings of a field name. -/
theorem C76_yaml30 (N : Nums) (Y : YamlLib) (sprint : Yv → String) (o : YOrder) (scalarJSON : Any → Option Any)
    (Back : String → String → Prop) (v : Val) (h : Writable V30.table N ok30 (.named "Spec") v)
    (j : Any) (hj : encode V30.table (.named "Spec") v = some j) (hc : ClearAs V30.table (.named "Spec") j)
    (hn : ∀ lit ∈ literals j, Survives N Back lit)
    (hY : ∀ items, decodeAny N j = some (.obj items) → Faithful Y sprint scalarJSON Back items) :
    ∃ text u w, marshalYAML V30.table N Y v = some text ∧
      unmarshalYAML V30.table N Y sprint o scalarJSON text = some w ∧ Same v u ∧ ReorderedVal u w := by
  obtain ⟨j', u, hj', hu, hs⟩ := C35_roundtrip30 N _ v h
  rw [hj] at hj'
  cases hj'
  obtain ⟨text, w, h1, h2, h3⟩ := yaml_document (o := o) ranked30 (s := V30.sSpec) (by decide +kernel)
    (by decide +kernel) hj hu hc hn hY
  exact ⟨text, u, w, h1, h2, hs, h3⟩

/-- **C76** for OpenAPI 3.0: a document that was not read from JSON has no such keys (C75). -/
theorem C76_fresh30 (N : Nums) (Y : YamlLib) (sprint : Yv → String) (o : YOrder) (scalarJSON : Any → Option Any)
    (Back : String → String → Prop) (v : Val) (h : Writable V30.table N ok30 (.named "Spec") v) (hd : Everywhere noDerived v)
    (j : Any) (hj : encode V30.table (.named "Spec") v = some j) (hn : ∀ lit ∈ literals j, Survives N Back lit)
    (hY : ∀ items, decodeAny N j = some (.obj items) → Faithful Y sprint scalarJSON Back items) :
    ∃ text u w, marshalYAML V30.table N Y v = some text ∧
      unmarshalYAML V30.table N Y sprint o scalarJSON text = some w ∧ Same v u ∧ ReorderedVal u w :=
  C76_yaml30 N Y sprint o scalarJSON Back v h j hj (C75_spellings30 N _ v h hd j hj) hn hY

/-- **C76** for OpenAPI 3.1: no document that can be written has such keys (C75). -/
theorem C76_yaml31 (N : Nums) (Y : YamlLib) (sprint : Yv → String) (o : YOrder) (scalarJSON : Any → Option Any)
    (Back : String → String → Prop) (v : Val) (h : Writable V31.table N ok31 (.named "Spec") v)
    (j : Any) (hj : encode V31.table (.named "Spec") v = some j)
    (hn : ∀ lit ∈ literals j, Survives N Back lit)
    (hY : ∀ items, decodeAny N j = some (.obj items) → Faithful Y sprint scalarJSON Back items) :
    ∃ text u w, marshalYAML V31.table N Y v = some text ∧
      unmarshalYAML V31.table N Y sprint o scalarJSON text = some w ∧ Same v u ∧ ReorderedVal u w := by
  obtain ⟨j', u, hj', hu, hs⟩ := C35_roundtrip31 N _ v h
  rw [hj] at hj'
  cases hj'
  obtain ⟨text, w, h1, h2, h3⟩ := yaml_document (o := o) ranked31 (s := V31.sSpec) (by decide +kernel)
    (by decide +kernel) hj hu (C75_spellings31 N _ v h j hj) hn hY
  exact ⟨text, u, w, h1, h2, hs, h3⟩

/-! ## Concrete cases -/

mutual
/-- A JSON value as YAML, with the entries of maps in the reverse order. -/
def asYaml : Any → Yv
  | .arr xs => .seq (asYamlList xs)
  | .obj ms => .mapI (asYamlMembers ms).reverse
  | a => .scalar a
def asYamlList : List Any → List Yv
  | [] => []
  | x :: xs => asYaml x :: asYamlList xs
def asYamlMembers : List (String × Any) → List (Yv × Yv)
  | [] => []
  | (k, x) :: ms => (.scalar (.str k), asYaml x) :: asYamlMembers ms
end

mutual
theorem asYaml_stands (sprint : Yv → String) : ∀ a, Stands sprint some Eq a (asYaml a)
  | .null => ⟨_, rfl, rfl⟩
  | .bool _ => ⟨_, rfl, rfl⟩
  | .num _ => ⟨_, _, rfl, rfl, rfl⟩
  | .str _ => ⟨_, rfl, rfl⟩
  | .arr xs => ⟨_, rfl, asYamlList_stands sprint xs⟩
  | .obj ms => ⟨_, _, rfl, asYamlMembers_stands sprint ms, (List.reverse_perm _).symm⟩
theorem asYamlList_stands (sprint : Yv → String) : ∀ a, StandsList sprint some Eq a (asYamlList a)
  | [] => rfl
  | x :: xs => ⟨_, _, rfl, asYaml_stands sprint x, asYamlList_stands sprint xs⟩
theorem asYamlMembers_stands (sprint : Yv → String) : ∀ a, StandsMembers sprint some Eq a (asYamlMembers a)
  | [] => rfl
  | (_, x) :: ms => ⟨_, _, _, rfl, rfl, asYaml_stands sprint x, asYamlMembers_stands sprint ms⟩
end

theorem encode_written {T : Table} {n : String} {v : Val} (h : (encode T (.named n) v).isSome = true) :
    encode T (.named n) v = some (written T n v) := by
  unfold written
  cases e : encode T (.named n) v with
  | none => rw [e] at h; cases h
  | some j => rfl

/-- A library for a single document: it writes `---` for it and reads that as the document. -/
def oneDocument (j : Any) : YamlLib where
  marshal items := if eqA (.obj items) j then some "---" else none
  unmarshal text := if text = "---" then some (asYaml j) else none

theorem oneDocument_faithful (sprint : Yv → String) (ms : List (String × Any)) (h : eqA (.obj ms) (.obj ms) = true) :
    Faithful (oneDocument (.obj ms)) sprint some Eq ms :=
  ⟨"---", asYaml (.obj ms), by simp [oneDocument, h], by simp [oneDocument], asYaml_stands sprint _⟩

/-- `null` is not a document; used for documents that are not written. -/
def yamlOf (T : Table) (N : Nums) (v : Val) : Any := (decodeAny N (written T "Spec" v)).getD .null

theorem sample_faithful {T : Table} {v : Val} (sprint : Yv → String)
    (h : eqA (yamlOf T sampleNums v) (yamlOf T sampleNums v) = true) (items : List (String × Any))
    (hi : decodeAny sampleNums (written T "Spec" v) = some (.obj items)) :
    Faithful (oneDocument (yamlOf T sampleNums v)) sprint some Eq items := by
  have e : yamlOf T sampleNums v = .obj items := by rw [yamlOf, hi]; rfl
  rw [e] at h ⊢
  exact oneDocument_faithful sprint items h

theorem sample_survives (lit : String) : Survives sampleNums Eq lit := ⟨lit, rfl, fun _ h => by rw [h]; exact ⟨rfl, rfl⟩⟩

/-- The sample documents of C35 meet the hypotheses. -/
theorem C76_case30 (sprint : Yv → String) (o : YOrder) :
    ∃ text u w, marshalYAML V30.table sampleNums (oneDocument (yamlOf V30.table sampleNums sample30)) sample30 = some text ∧
      unmarshalYAML V30.table sampleNums (oneDocument (yamlOf V30.table sampleNums sample30)) sprint o some text = some w ∧
      Same sample30 u ∧ ReorderedVal u w :=
  C76_yaml30 sampleNums _ sprint o some Eq sample30 C35_case30 (written V30.table "Spec" sample30)
    (encode_written (by decide +kernel)) (clear_as C74_case30.1 _)
    (fun lit _ => sample_survives lit) (sample_faithful sprint (by decide +kernel))

theorem C76_case31 (sprint : Yv → String) (o : YOrder) :
    ∃ text u w, marshalYAML V31.table sampleNums (oneDocument (yamlOf V31.table sampleNums sample31)) sample31 = some text ∧
      unmarshalYAML V31.table sampleNums (oneDocument (yamlOf V31.table sampleNums sample31)) sprint o some text = some w ∧
      Same sample31 u ∧ ReorderedVal u w :=
  C76_yaml31 sampleNums _ sprint o some Eq sample31 C35_case31 (written V31.table "Spec" sample31)
    (encode_written (by decide +kernel))
    (fun lit _ => sample_survives lit) (sample_faithful sprint (by decide +kernel))

/-! ## Large integers -/

/-- Numbers as in Go for this one literal: `2^53 + 1` is not a `float64`. -/
def floatNums : Nums where
  f64 lit := if lit = "9007199254740993" then some "9007199254740992" else some lit
  i64 lit := some lit

/-- A document with a schema that has `maxLength`. -/
def longDocument (n : String) : Val := withFields V30.sSpec [("Openapi", .str "3.0.3"),
  ("Info", withFields V30.sInfo [("Title", .str "t"), ("Version", .str "1")]),
  ("Paths", withFields V30.sPaths []),
  ("Components", withFields V30.sComponents [("Schemas", withFields V30.sComponentsSchemas
    [("MapOfSchemaOrRefValues", .map [("A", withFields V30.sSchemaOrRef [("Schema", withFields V30.sSchema
      [("MaxLength", .num n)])])])])])]

/-- **C76**: an integer that is not a `float64` is changed by YAML, and not by JSON, even if the YAML library reads
what it writes. -/
theorem C76_large30 (Y : YamlLib) (sprint : Yv → String) (o : YOrder) (scalarJSON : Any → Option Any)
    (j : Any) (hj : encode V30.table (.named "Spec") (longDocument "9007199254740993") = some j)
    (hY : ∀ items, decodeAny floatNums j = some (.obj items) → Faithful Y sprint scalarJSON Eq items) :
    decode V30.table floatNums (.named "Spec") j = some (longDocument "9007199254740993") ∧
    ∃ text w, marshalYAML V30.table floatNums Y (longDocument "9007199254740993") = some text ∧
      unmarshalYAML V30.table floatNums Y sprint o scalarJSON text = some w ∧
      ReorderedVal (longDocument "9007199254740992") w := by
  have e := encode_written (T := V30.table) (n := "Spec") (v := longDocument "9007199254740993") (by decide +kernel)
  rw [hj] at e
  have e' := Option.some.inj e
  subst e'
  refine ⟨isV_sound (by decide +kernel), ?_⟩
  have hd : Distinct (written V30.table "Spec" (longDocument "9007199254740993")) :=
    clear_distinct _ (clearB_sound (T := V30.table) _ (by decide +kernel))
  have hany : decodeAny floatNums (written V30.table "Spec" (longDocument "9007199254740993")) =
      some (written V30.table "Spec" (longDocument "9007199254740992")) := isA_sound (by decide +kernel)
  have hu : decode V30.table floatNums (.named "Spec") (written V30.table "Spec" (longDocument "9007199254740992")) =
    some (longDocument "9007199254740992") := isV_sound (by decide +kernel)
  obtain ⟨items, hi⟩ := spec_obj ranked30 (s := V30.sSpec) (by decide +kernel) (by decide +kernel) hu
  have hc : Clear V30.table (written V30.table "Spec" (longDocument "9007199254740992")) :=
    clearB_sound (T := V30.table) _ (by decide +kernel)
  rw [hi] at hany hc hu
  obtain ⟨ms, hms⟩ := decodeAny_obj hany
  rw [hms] at hj hany hY hd
  obtain ⟨text, h1, h2⟩ := yaml_read (o := o) hj hd hany (clear_as hc _) (readAlike_eq floatNums) (hY items hany)
  rw [hu] at h2
  cases h : unmarshalYAML V30.table floatNums Y sprint o scalarJSON text with
  | none => rw [h] at h2; exact False.elim h2
  | some w => rw [h] at h2; exact ⟨text, w, h1, h, h2⟩

/-- There is such a library. -/
theorem C76_large_case (sprint : Yv → String) :
    ∃ items, decodeAny floatNums (written V30.table "Spec" (longDocument "9007199254740993")) = some (.obj items) ∧
      Faithful (oneDocument (.obj items)) sprint some Eq items :=
  ⟨_, rfl, oneDocument_faithful sprint _ (by decide +kernel)⟩

end Verif
