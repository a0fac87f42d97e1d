import Verif.Lemmas.DocJson30
import Verif.Lemmas.PublishSchema30

/-! The JSON that 3.0 schemas are written as. -/

namespace Verif.DocJson.J30
open Codec Spec Conform
open Verif.Pub30

variable {N : Nums} {lit : F64 → String}

theorem may_float {T : Table} {f : Field} {k : String} {o : Option F64} (hk : f.key = k) (hf : f.omitempty = true)
    (ht : f.ty = .ptr .float) : Writes T f (opt (fun x => .num (lit x)) o) (may k (fun x => .num (lit x)) o) :=
  writes_may hk hf ht (by simp) fun _ _ => rfl

theorem may_int {T : Table} {f : Field} {k : String} {o : Option Int} (hk : f.key = k) (hf : f.omitempty = true)
    (ht : f.ty = .ptr .int) : Writes T f (opt (fun i => .num (toString i)) o) (may k (fun i => .num (toString i)) o) :=
  writes_may hk hf ht (by simp) fun _ _ => rfl

theorem may_any {T : Table} {f : Field} {k : String} {o : Option Any} (hk : f.key = k) (hf : f.omitempty = true)
    (ht : f.ty = .ptr .any) : Writes T f (opt .any o) (may k id o) :=
  writes_may hk hf ht (by simp) fun _ _ => rfl

/-- Schemas that are written so. -/
abbrev Sch (lit : F64 → String) (s : V30.OS) : Prop :=
  encode V30.table (.named "SchemaOrRef") (schemaVal lit s) = some (schema30 lit s)

theorem schema30_obj (s : V30.OS) : ∃ ms, schema30 lit s = .obj ms := by
  cases s <;> exact ⟨_, by rw [schema30]; rfl⟩

theorem schemaVal_notNil (s : V30.OS) : schemaVal lit s ≠ .nil := by
  obtain ⟨fs, e⟩ := schemaVal_struct (lit := lit) s
  rw [e]; simp

theorem may_schema {f : Field} {k : String} {o : Option V30.OS} (hk : f.key = k) (hf : f.omitempty = true)
    (ht : f.ty = .ptr (.named "SchemaOrRef")) (h : ∀ s, o = some s → Sch lit s) :
    Writes V30.table f (schemaValOpt lit o) (may k id (schemaOpt30 lit o)) := by
  cases o with
  | none =>
    rw [schemaValOpt, schemaOpt30]
    exact .inl ⟨omitted_nil (by simp [nilable, hf, ht]), rfl⟩
  | some s =>
    rw [schemaValOpt, schemaOpt30]
    exact writes_ptr hk ht (schemaVal_notNil s) (h s rfl)

theorem vals_eq (l : List V30.OS) : schemaVals lit l = l.map (schemaVal lit) := by
  induction l with
  | nil => rfl
  | cons s l ih => rw [schemaVals, ih]; rfl

theorem jsons_eq (l : List V30.OS) : schemas30 lit l = l.map (schema30 lit) := by
  induction l with
  | nil => rfl
  | cons s l ih => rw [schemas30, ih]; rfl

theorem props_eq (l : List (String × V30.OS)) : schemaProps lit l = l.map (fun p => (p.1, schemaVal lit p.2)) := by
  induction l with
  | nil => rfl
  | cons s l ih => obtain ⟨k, s⟩ := s; rw [schemaProps, ih]; rfl

theorem jsonProps_eq (l : List (String × V30.OS)) : props30 lit l = l.map (fun p => (p.1, schema30 lit p.2)) := by
  induction l with
  | nil => rfl
  | cons s l ih => obtain ⟨k, s⟩ := s; rw [props30, ih]; rfl

theorem many_schemas {f : Field} {k : String} {l : List V30.OS} (hk : f.key = k) (hf : f.omitempty = true)
    (ht : f.ty = .slice (.named "SchemaOrRef")) (h : ∀ s ∈ l, Sch lit s) :
    Writes V30.table f (sliceOf (schemaVals lit l)) (many k id (schemas30 lit l)) := by
  have := writes_many hk hf ht h
  rw [vals_eq, jsons_eq]
  cases l with
  | nil => exact this
  | cons s l => simpa [many, listVal, sliceOf] using this

theorem table_schemas {f : Field} {k : String} {l : List (String × V30.OS)} (hk : f.key = k) (hf : f.omitempty = true)
    (ht : f.ty = .map (.named "SchemaOrRef")) (h : ∀ k s, (k, s) ∈ l → Sch lit s) :
    Writes V30.table f (mapOf (schemaProps lit l)) (table k id (props30 lit l)) := by
  have := writes_table hk hf ht h
  rw [props_eq, jsonProps_eq]
  cases l with
  | nil => exact this
  | cons s l => simpa [table, Pub30.mapVal, mapOf, entries, Function.comp_def] using this

theorem addl_schema {f : Field} {b : Option Bool} {o : Option V30.OS} (hk : f.key = "additionalProperties") (hf : f.omitempty = true)
    (ht : f.ty = .ptr (.named "SchemaAdditionalProperties")) (h : ∀ s, o = some s → Sch lit s) :
    Writes V30.table f (addlVal b (schemaValOpt lit o)) (additional30 b (schemaOpt30 lit o)) := by
  have hn : GoMap.get? V30.table "SchemaAdditionalProperties" = some (.struct V30.sSchemaAdditionalProperties) := by kernel_rfl
  cases b with
  | some b =>
    exact writes_ptr hk ht (by intro e; cases e) (encode_alt hn rfl (by decide) (t := .bool)
      (by simp [V30.sSchemaAdditionalProperties]) (by simp) (by rfl) (by simp))
  | none =>
    cases o with
    | none =>
      rw [schemaValOpt, schemaOpt30]
      exact .inl ⟨omitted_nil (by simp [nilable, hf, ht]), rfl⟩
    | some s =>
      obtain ⟨ms, e2⟩ := schema30_obj (lit := lit) s
      have h := h s rfl
      unfold Sch at h
      rw [schemaValOpt, schemaOpt30]
      obtain ⟨fs, e⟩ := schemaVal_struct (lit := lit) s
      rw [e, e2] at h
      rw [e, e2]
      exact writes_ptr hk ht (by intro e; cases e) (encode_alt hn rfl (by decide) (t := .named "SchemaOrRef")
        (by simp [V30.sSchemaAdditionalProperties]) (by simp) h (by simp))

theorem json_schema_of {flat : V30.OFlat} {not : Option V30.OS} {allOf oneOf anyOf : List V30.OS} {items : Option V30.OS}
    {props : List (String × V30.OS)} {addlBool : Option Bool} {addl : Option V30.OS}
    (ht : ∀ t, flat.type = some t → t ∈ schemaTypes)
    (h1 : ∀ s, not = some s → Sch lit s) (h2 : ∀ s ∈ allOf, Sch lit s) (h3 : ∀ s ∈ oneOf, Sch lit s)
    (h4 : ∀ s ∈ anyOf, Sch lit s) (h5 : ∀ s, items = some s → Sch lit s) (h6 : ∀ k s, (k, s) ∈ props → Sch lit s)
    (h7 : ∀ s, addl = some s → Sch lit s) : Sch lit (.schema flat not allOf oneOf anyOf items props addlBool addl) := by
  unfold Sch
  rw [schemaVal, schema30]
  refine encode_alt (by kernel_rfl) rfl (by decide) (t := .named "Schema") (by simp [V30.sSchemaOrRef]) (by intro e; cases e) ?_
    (by intro e; cases e)
  refine encode_out (by kernel_rfl) (by decide +kernel)
    (.fields (gs := [_, _, _, _, _, _, _, _, _, _, _, _, _, _, _, _, _, _, _, _, _, _, _, _, _, _, _, _, _, _, _, _]) (gs' := [_]) ?_
    (.hidden (by rfl) (by decide +kernel) (part_entries (g := .any) (j := id) (m := flat.ext) fun k r hr => rfl) (by rests)))
  refine .take (may_str rfl rfl rfl) ?_
  refine .take (may_float rfl rfl rfl) ?_
  refine .take (may_float rfl rfl rfl) ?_
  refine .take (may_bool rfl rfl rfl) ?_
  refine .take (may_float rfl rfl rfl) ?_
  refine .take (may_bool rfl rfl rfl) ?_
  refine .take (may_int rfl rfl rfl) ?_
  refine .take (may_int rfl rfl rfl) ?_
  refine .take (may_str rfl rfl rfl) ?_
  refine .take (may_int rfl rfl rfl) ?_
  refine .take (may_int rfl rfl rfl) ?_
  refine .take (may_bool rfl rfl rfl) ?_
  refine .take (may_int rfl rfl rfl) ?_
  refine .take (may_int rfl rfl rfl) ?_
  refine .take (writes_many rfl rfl rfl fun _ _ => rfl) ?_
  refine .take (writes_many rfl rfl rfl fun _ _ => rfl) ?_
  refine .take (writes_may rfl rfl rfl (by simp) fun t e => out_enum (by kernel_rfl) (ht t e)) ?_
  refine .take (may_schema rfl rfl rfl h1) ?_
  refine .take (many_schemas rfl rfl rfl h2) ?_
  refine .take (many_schemas rfl rfl rfl h3) ?_
  refine .take (many_schemas rfl rfl rfl h4) ?_
  refine .take (may_schema rfl rfl rfl h5) ?_
  refine .take (table_schemas rfl rfl rfl h6) ?_
  refine .take (addl_schema rfl rfl rfl h7) ?_
  refine .take (may_str rfl rfl rfl) ?_
  refine .take (may_str rfl rfl rfl) ?_
  refine .take (may_any rfl rfl rfl) ?_
  refine .take (may_bool rfl rfl rfl) ?_
  skips
  refine .take (may_bool rfl rfl rfl) ?_
  refine .take (may_bool rfl rfl rfl) ?_
  refine .take (may_any rfl rfl rfl) ?_
  skips
  refine .take (may_bool rfl rfl rfl) ?_
  skips

theorem json_empty : Sch lit .empty := by
  unfold Sch
  rw [schemaVal, schema30]
  exact encode_out (by kernel_rfl) (by decide +kernel) (by rests)

theorem json_ref (r : String) : Sch lit (.ref r) := by
  unfold Sch
  rw [schemaVal, schema30]
  refine encode_alt (by kernel_rfl) rfl (by decide) (t := .named "SchemaReference") (by simp [V30.sSchemaOrRef])
    (by intro e; cases e) ?_ (by intro e; cases e)
  exact encode_out (by kernel_rfl) (by decide +kernel)
    (.fields (gs' := []) (gs := [_]) (.take (one_str rfl rfl rfl) .nil) (by rests))

mutual
theorem json_schema : ∀ (s : V30.OS), SchemaOk N lit s → Sch lit s
  | .empty, _ => json_empty
  | .ref r, _ => json_ref r
  | .schema flat not allOf oneOf anyOf items props addlBool addl, h => by
    simp only [SchemaOk] at h
    obtain ⟨h1, h2, h3, h4, h5, h6, ⟨_, h8⟩, _, h10⟩ := h
    exact json_schema_of h1.type (json_schemaOpt not h2) (json_schemas allOf h3) (json_schemas oneOf h4) (json_schemas anyOf h5)
      (json_schemaOpt items h6) (json_schemaProps props h8) (json_schemaOpt addl h10)
theorem json_schemaOpt : ∀ (o : Option V30.OS), SchemaOkOpt N lit o → ∀ s, o = some s → Sch lit s
  | none, _, _, e => by cases e
  | some s, h, s', e => by
    simp only [SchemaOkOpt] at h
    simp only [Option.some.injEq] at e
    rw [← e]
    exact json_schema s h
theorem json_schemas : ∀ (l : List V30.OS), SchemaOkList N lit l → ∀ s ∈ l, Sch lit s
  | [], _, _, hv => by cases hv
  | s :: ss, h, v, hv => by
    simp only [SchemaOkList] at h
    simp only [List.mem_cons] at hv
    rcases hv with e | hv
    · rw [e]; exact json_schema s h.1
    · exact json_schemas ss h.2 v hv
theorem json_schemaProps : ∀ (l : List (String × V30.OS)), SchemaOkProps N lit l → ∀ k s, (k, s) ∈ l → Sch lit s
  | [], _, _, _, hv => by cases hv
  | (k', s) :: ss, h, k, v, hv => by
    simp only [SchemaOkProps] at h
    simp only [List.mem_cons, Prod.mk.injEq] at hv
    rcases hv with ⟨_, e⟩ | hv
    · rw [e]; exact json_schema s h.1
    · exact json_schemaProps ss h.2 k v hv
end

theorem schemas30_ok : Schemas30 (SchemaOk N lit) (schemaVal lit) (schema30 lit) where
  notNil := schemaVal_notNil
  null := by
    intro s
    obtain ⟨ms, e⟩ := schema30_obj (lit := lit) s
    rw [e]; simp
  out := json_schema

end Verif.DocJson.J30
