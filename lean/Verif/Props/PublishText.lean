import Verif.Props.Publish31
import Verif.Props.DocJson
import Verif.Props.TextYaml
import Verif.Lemmas.PublishText

/-! The texts of documents that were built by calls (C98). -/

namespace Verif
open Codec Spec Conform Grammar

/-- **C98.** The numbers of a value that can be written and read back are printed as JSON numbers. -/
theorem C98_numbers (N : Nums) (hN : PrintsNumbers N) (T : Table) (ok : String → String → Val → Prop) (ty : Ty) (v : Val)
    (h : Writable T N ok ty v) : Numeric v := Text.writable_numeric hN h

/-! ## OpenAPI 3.0 -/

theorem writable_built30 {N : Nums} {lit : F64 → String} (hF : ∀ l, N.i64 l = some l → N.f64 l ≠ none) (h0 : Pub30.IntOk N 0)
    {d : V30.Spec V30.OS} (h : Pub30.Built V30.ver (Always (Pub30.JsonOk N lit)) (Always (Pub30.SchemaOk N lit)) d) :
    Writable V30.table N ok30 (.named "Spec") (Pub30.docVal (Pub30.schemaVal lit) d) :=
  (Pub30.good_doc hF Pub30.schemaVals_ok (C83_in_order (Pub30.converts30 h0) d h)).writable

/-- **C98**, 3.0: a document that was built by any sequence of calls with input that is in order is written as a text, unless
it is nested too deeply. The text is a JSON text of what the document says (C85), and of nothing else. The published schema
of OpenAPI 3.0 accepts it. Reading the text gives the same document. -/
theorem C98_json30 (N : Nums) (hN : PrintsNumbers N) (lit : F64 → String) (isInt : String → Prop) (env : String → Any → Prop)
    (hE : Meta.Meaning Meta.defs30 isInt env) (hI : ∀ l, N.i64 l ≠ none → isInt l)
    (hF : ∀ l, N.i64 l = some l → N.f64 l ≠ none) (h0 : Pub30.IntOk N 0) (d : V30.Spec V30.OS)
    (h : Pub30.Built V30.ver (Always (Pub30.JsonOk N lit)) (Always (Pub30.SchemaOk N lit)) d)
    (hd : depth (DocJson.doc30 (DocJson.schema30 lit) d) ≤ 10000) :
    ∃ cs, Text.marshal V30.table (.named "Spec") (Pub30.docVal (Pub30.schemaVal lit) d) = .ok cs ∧
      (∀ j, JSONText cs j ↔ j = DocJson.doc30 (DocJson.schema30 lit) d) ∧
      env "OpenAPI" (DocJson.doc30 (DocJson.schema30 lit) d) ∧
      ∃ w, Text.unmarshal V30.table N (.named "Spec") cs = some w ∧ Same (Pub30.docVal (Pub30.schemaVal lit) d) w := by
  have hw := writable_built30 hF h0 h
  have hv := Text.writable_numeric hN hw
  have he := C85_built30 N lit h0 d h
  have hm : Text.marshal V30.table (.named "Spec") (Pub30.docVal (Pub30.schemaVal lit) d) =
      .ok (text (DocJson.doc30 (DocJson.schema30 lit) d)) := by
    rw [C94_writes30 _ _ hv, he]
    exact if_pos hd
  have hj := Text.text_json (Text.encode_numbers hv he)
  obtain ⟨j, _, h1, h2, _⟩ := C83_published N lit isInt env hE hI hF h0 d h
  rw [he] at h1
  cases h1
  exact ⟨_, hm, fun j => ⟨fun h => C95_unique _ _ _ h hj, fun e => e ▸ hj⟩, h2, C94_roundtrip30 N _ _ hw hv _ hm⟩

/-- **C98**, 3.0: a document that is nested too deeply is not written. -/
theorem C98_deep30 (N : Nums) (hN : PrintsNumbers N) (lit : F64 → String) (hF : ∀ l, N.i64 l = some l → N.f64 l ≠ none)
    (h0 : Pub30.IntOk N 0) (d : V30.Spec V30.OS)
    (h : Pub30.Built V30.ver (Always (Pub30.JsonOk N lit)) (Always (Pub30.SchemaOk N lit)) d)
    (hd : 10000 < depth (DocJson.doc30 (DocJson.schema30 lit) d)) :
    Text.marshal V30.table (.named "Spec") (Pub30.docVal (Pub30.schemaVal lit) d) = .err := by
  rw [C94_writes30 _ _ (Text.writable_numeric hN (writable_built30 hF h0 h)), C85_built30 N lit h0 d h]
  exact if_neg (by omega)

/-- **C98**, 3.0: it can also be written as YAML and read again, by way of the JSON texts the code writes and reads, with the
same result up to the order of map entries, if yaml.v2 reads what it wrote. -/
theorem C98_yaml30 (N : Nums) (hN : PrintsNumbers N) (lit : F64 → String) (Y : YamlLib) (sprint : Yv → String) (o : YOrder)
    (scalarJSON : Any → Option Any) (hs : ∀ s j, scalarJSON s = some j → NumbersOk j) (Back : String → String → Prop)
    (hF : ∀ l, N.i64 l = some l → N.f64 l ≠ none) (h0 : Pub30.IntOk N 0) (d : V30.Spec V30.OS)
    (h : Pub30.Built V30.ver (Always (Pub30.JsonOk N lit)) (Always (Pub30.SchemaOk N lit)) d)
    (hd : depth (DocJson.doc30 (DocJson.schema30 lit) d) ≤ 10000)
    (hn : ∀ l ∈ literals (DocJson.doc30 (DocJson.schema30 lit) d), Survives N Back l)
    (hY : ∀ items, decodeAny N (DocJson.doc30 (DocJson.schema30 lit) d) = some (.obj items) →
      Faithful Y sprint scalarJSON Back items) :
    ∃ text u w, Text.marshalYAML V30.table N Y (Pub30.docVal (Pub30.schemaVal lit) d) = .ok text ∧
      Text.unmarshalYAML V30.table N Y sprint o scalarJSON text = some w ∧
      Same (Pub30.docVal (Pub30.schemaVal lit) d) u ∧ ReorderedVal u w :=
  C96_fresh30 N Y sprint o scalarJSON hs Back _ (Text.writable_numeric hN (writable_built30 hF h0 h)) (writable_built30 hF h0 h)
    (Pub30.good_doc hF Pub30.schemaVals_ok (C83_in_order (Pub30.converts30 h0) d h)).fresh _ (C85_built30 N lit h0 d h) hd hn hY

/-! ## OpenAPI 3.1 -/

theorem writable_built31 {N : Nums} {env : String → Meta31.Sem} (hE : Meta31.Meaning Meta31.defs31 env)
    {toSimpleMap : JS → Except String Pub31.Schema}
    (h0 : ∀ format, Pub31.JsonOk N toSimpleMap .content (stringJS format)) {d : V31.Spec Pub31.Schema}
    (h : Pub31.Built (V31.ver toSimpleMap) (Pub31.JsonOk N toSimpleMap) (Pub31.SchemaOk N) d) :
    Writable V31.table N ok31 (.named "Spec") (Pub31.docVal d) :=
  (Pub31.good_doc hE (C84_in_order (Pub31.translates31 h0) d h)).writable

/-- **C98**, 3.1: a document that was built by any sequence of calls with input that is in order is written as a text, unless
it is nested too deeply. The text is a JSON text of what the document says (C85), and of nothing else. The published schema
of OpenAPI 3.1 accepts it exactly if there is something in it. Reading the text gives the same document. -/
theorem C98_json31 (N : Nums) (hN : PrintsNumbers N) (env : String → Meta31.Sem) (hE : Meta31.Meaning Meta31.defs31 env)
    (toSimpleMap : JS → Except String Pub31.Schema)
    (h0 : ∀ format, Pub31.JsonOk N toSimpleMap .content (stringJS format)) (d : V31.Spec Pub31.Schema)
    (h : Pub31.Built (V31.ver toSimpleMap) (Pub31.JsonOk N toSimpleMap) (Pub31.SchemaOk N) d)
    (hd : depth (DocJson.doc31 d) ≤ 10000) :
    ∃ cs, Text.marshal V31.table (.named "Spec") (Pub31.docVal d) = .ok cs ∧
      (∀ j, JSONText cs j ↔ j = DocJson.doc31 d) ∧ ((env "OpenAPI").ok (DocJson.doc31 d) ↔ Pub31.Something d) ∧
      ∃ w, Text.unmarshal V31.table N (.named "Spec") cs = some w ∧ Same (Pub31.docVal d) w := by
  have hw := writable_built31 hE h0 h
  have hv := Text.writable_numeric hN hw
  have he := C85_built31 N toSimpleMap h0 d h
  have hm : Text.marshal V31.table (.named "Spec") (Pub31.docVal d) = .ok (text (DocJson.doc31 d)) := by
    rw [C94_writes31 _ _ hv, he]
    exact if_pos hd
  have hj := Text.text_json (Text.encode_numbers hv he)
  obtain ⟨j, _, h1, h2, _⟩ := C84_published N env hE toSimpleMap h0 d h
  rw [he] at h1
  cases h1
  exact ⟨_, hm, fun j => ⟨fun h => C95_unique _ _ _ h hj, fun e => e ▸ hj⟩, h2, C94_roundtrip31 N _ _ hw hv _ hm⟩

/-- **C98**, 3.1: a document that is nested too deeply is not written. -/
theorem C98_deep31 (N : Nums) (hN : PrintsNumbers N) (env : String → Meta31.Sem) (hE : Meta31.Meaning Meta31.defs31 env)
    (toSimpleMap : JS → Except String Pub31.Schema)
    (h0 : ∀ format, Pub31.JsonOk N toSimpleMap .content (stringJS format)) (d : V31.Spec Pub31.Schema)
    (h : Pub31.Built (V31.ver toSimpleMap) (Pub31.JsonOk N toSimpleMap) (Pub31.SchemaOk N) d)
    (hd : 10000 < depth (DocJson.doc31 d)) : Text.marshal V31.table (.named "Spec") (Pub31.docVal d) = .err := by
  rw [C94_writes31 _ _ (Text.writable_numeric hN (writable_built31 hE h0 h)), C85_built31 N toSimpleMap h0 d h]
  exact if_neg (by omega)

/-- **C98**, 3.1: it can also be written as YAML and read again. -/
theorem C98_yaml31 (N : Nums) (hN : PrintsNumbers N) (env : String → Meta31.Sem) (hE : Meta31.Meaning Meta31.defs31 env)
    (Y : YamlLib) (sprint : Yv → String) (o : YOrder)
    (scalarJSON : Any → Option Any) (hs : ∀ s j, scalarJSON s = some j → NumbersOk j) (Back : String → String → Prop)
    (toSimpleMap : JS → Except String Pub31.Schema)
    (h0 : ∀ format, Pub31.JsonOk N toSimpleMap .content (stringJS format)) (d : V31.Spec Pub31.Schema)
    (h : Pub31.Built (V31.ver toSimpleMap) (Pub31.JsonOk N toSimpleMap) (Pub31.SchemaOk N) d)
    (hd : depth (DocJson.doc31 d) ≤ 10000)
    (hn : ∀ l ∈ literals (DocJson.doc31 d), Survives N Back l)
    (hY : ∀ items, decodeAny N (DocJson.doc31 d) = some (.obj items) → Faithful Y sprint scalarJSON Back items) :
    ∃ text u w, Text.marshalYAML V31.table N Y (Pub31.docVal d) = .ok text ∧
      Text.unmarshalYAML V31.table N Y sprint o scalarJSON text = some w ∧ Same (Pub31.docVal d) u ∧ ReorderedVal u w :=
  C96_yaml31 N Y sprint o scalarJSON hs Back _ (Text.writable_numeric hN (writable_built31 hE h0 h)) (writable_built31 hE h0 h) _
    (C85_built31 N toSimpleMap h0 d h) hd hn hY

/-! ## Concrete cases -/

/-- **C98**, 3.0, concrete: the example of C83 has a text, and the published schema accepts its JSON. -/
theorem C98_case30 (env : String → Any → Prop) (hE : Meta.Meaning Meta.defs30 (fun _ => True) env) :
    ∃ cs j, Text.marshal V30.table (.named "Spec") (Pub30.docVal (Pub30.schemaVal Ex83.lit)
        (Ex83.doc (Ex83.fieldId (Ex83.typed "integer") false ""))) = .ok cs ∧ JSONText cs j ∧ env "OpenAPI" j ∧
      ∃ w, Text.unmarshal V30.table jsonNums (.named "Spec") cs = some w := by
  obtain ⟨cs, h1, h2, h3, w, h4, _⟩ := C98_json30 jsonNums jsonNums_prints Ex83.lit _ env hE (fun _ _ => trivial)
    (fun _ => jsonNums_f64) Ex83.ok_zero _ Ex83.built (by decide +kernel)
  exact ⟨cs, _, h1, (h2 _).2 rfl, h3, w, h4⟩

/-- **C98**, 3.1, concrete: so has the example of C84. -/
theorem C98_case31 (env : String → Meta31.Sem) (hE : Meta31.Meaning Meta31.defs31 env) :
    ∃ cs j, Text.marshal V31.table (.named "Spec") (Pub31.docVal
        (Ex84.doc (Ex84.fieldId (Ex83.typed "integer") false "") (Ex83.typed "integer") 201)) = .ok cs ∧ JSONText cs j ∧
      (env "OpenAPI").ok j ∧ ∃ w, Text.unmarshal V31.table jsonNums (.named "Spec") cs = some w := by
  obtain ⟨cs, h1, h2, h3, w, h4, _⟩ := C98_json31 jsonNums jsonNums_prints env hE Ex84.simple Ex84.ok_text _ Ex84.built
    (by decide +kernel)
  exact ⟨cs, _, h1, (h2 _).2 rfl, h3.2 (.inl (by decide +kernel)), w, h4⟩

theorem json_survives {ls : List String} (h : ls.all Text.numberB = true) : ∀ l ∈ ls, Survives jsonNums Eq l := by
  intro l hl
  have e : jsonNums.f64 l = some l := if_pos (List.all_eq_true.1 h l hl)
  exact ⟨l, e, fun _ hb => by subst hb; exact ⟨rfl, rfl⟩⟩

theorem json_faithful {j : Any} (sprint : Yv → String) (h : (match decodeAny jsonNums j with
      | some a => eqA a a && Text.numbersB a
      | none => false) = true) (items : List (String × Any)) (hi : decodeAny jsonNums j = some (.obj items)) :
    Faithful (oneDocument ((decodeAny jsonNums j).getD .null)) sprint jsonScalar Eq items := by
  rw [hi] at h ⊢
  simp only [Bool.and_eq_true] at h
  exact ⟨"---", asYaml (.obj items), by simp [oneDocument, h.1], by simp [oneDocument], asYaml_stands_json sprint _ h.2⟩

/-- The JSON of the example of C83. -/
def json83 : Any := DocJson.doc30 (DocJson.schema30 Ex83.lit) (Ex83.doc (Ex83.fieldId (Ex83.typed "integer") false ""))

/-- The JSON of the example of C84. -/
def json84 : Any := DocJson.doc31 (Ex84.doc (Ex84.fieldId (Ex83.typed "integer") false "") (Ex83.typed "integer") 201)

/-- **C98**, 3.0, concrete: the example of C83 is kept as YAML by a library that can keep it. -/
theorem C98_case_yaml30 (sprint : Yv → String) (o : YOrder) : ∃ text w,
    Text.marshalYAML V30.table jsonNums (oneDocument ((decodeAny jsonNums json83).getD .null))
      (Pub30.docVal (Pub30.schemaVal Ex83.lit) (Ex83.doc (Ex83.fieldId (Ex83.typed "integer") false ""))) = .ok text ∧
    Text.unmarshalYAML V30.table jsonNums (oneDocument ((decodeAny jsonNums json83).getD .null)) sprint o jsonScalar text = some w := by
  obtain ⟨text, _, w, h1, h2, _⟩ := C98_yaml30 jsonNums jsonNums_prints Ex83.lit _ sprint o jsonScalar jsonScalar_ok Eq
    (fun _ => jsonNums_f64) Ex83.ok_zero _ Ex83.built (by decide +kernel)
    (json_survives (by decide +kernel)) (json_faithful (j := json83) sprint (by decide +kernel))
  exact ⟨text, w, h1, h2⟩

/-- **C98**, 3.1, concrete: so is the example of C84. -/
theorem C98_case_yaml31 (env : String → Meta31.Sem) (hE : Meta31.Meaning Meta31.defs31 env) (sprint : Yv → String)
    (o : YOrder) : ∃ text w,
    Text.marshalYAML V31.table jsonNums (oneDocument ((decodeAny jsonNums json84).getD .null))
      (Pub31.docVal (Ex84.doc (Ex84.fieldId (Ex83.typed "integer") false "") (Ex83.typed "integer") 201)) = .ok text ∧
    Text.unmarshalYAML V31.table jsonNums (oneDocument ((decodeAny jsonNums json84).getD .null)) sprint o jsonScalar text = some w := by
  obtain ⟨text, _, w, h1, h2, _⟩ := C98_yaml31 jsonNums jsonNums_prints env hE _ sprint o jsonScalar jsonScalar_ok Eq
    Ex84.simple Ex84.ok_text _ Ex84.built (by decide +kernel)
    (json_survives (by decide +kernel)) (json_faithful (j := json84) sprint (by decide +kernel))
  exact ⟨text, w, h1, h2⟩

/-- **C98**, concrete: the text of a small document. -/
theorem C98_text : Text.marshal V30.table (.named "Spec")
      (Pub30.docVal (Pub30.schemaVal Ex83.lit) (V30.Spec.addOperation (V30.Spec.setTitle {} "A & B") "GET" "/ping" {}).1) =
    .ok "{\"openapi\":\"3.0.3\",\"info\":{\"title\":\"A \\u0026 B\",\"version\":\"\"},\"paths\":{\"/ping\":{\"get\":{\"responses\":{\"204\":{\"description\":\"No Content\"}}}}}}".toList := by
  kernel_rfl

end Verif
