import Verif.Lemmas.DocJson30
import Verif.Spec.Publish31

/-! The JSON that 3.1 documents are written as. -/

namespace Verif.DocJson.J31
open Codec Spec Conform
open Verif.Pub31
open Pub30 (fill opt listVal refOrVal securityVal)
open J30 (one_str may_str may_bool out_enum mapVal_some json_security)

variable {Sc : Role → Schema → Prop}

theorem json_schema (s : Schema) : encode V31.table (.map .any) (schemaVal s) = some (.obj s) := by
  unfold schemaVal
  rw [encode_entries (j := id) (fun _ _ _ => rfl)]
  simp [entries]

/-- A schema. -/
theorem may_map {f : Field} {o : Option Schema} (hk : f.key = "schema") (hf : f.omitempty = true) (ht : f.ty = .map .any) :
    Writes V31.table f (opt schemaVal o) (schema31 o) := by
  cases o with
  | none => exact .inl ⟨omitted_nil (by simp [Pub30.nilable, hf, ht]), rfl⟩
  | some s =>
    cases s with
    | nil => exact .inl ⟨by simp [omitted, hf, ht, opt, schemaVal, isEmpty], rfl⟩
    | cons p s =>
      refine .inr ⟨by simp [omitted, opt, schemaVal, ht, isEmpty], .obj (p :: s), ?_, ?_⟩
      · rw [ht]; exact json_schema _
      · rw [hk]; simp [schema31, table, entries]

theorem json_media {mt : MediaType Schema} :
    encode V31.table (.named "MediaType") (mediaVal mt) = some (media schema31 mt) := by
  refine encode_out (by kernel_rfl) (by decide +kernel) (.fields (gs' := []) (gs := [_]) ?_ (by rests))
  refine .take (may_map rfl rfl rfl) ?_
  skips

theorem style_mem {i st : String} (h : st ∈ places.styles i) :
    st ∈ ["form", "spaceDelimited", "pipeDelimited", "deepObject"] := by
  simp only [places, Pub31.styles] at h
  split at h
  · exact h
  · simp at h; simp [h]
  · cases h

theorem json_param {p : Parameter Schema} (h : ParamOk places Sc p) :
    encode V31.table (.named "Parameter") (paramVal p) = some (param31 schema31 p) := by
  refine encode_out (by kernel_rfl) (by decide +kernel) (.fields (gs' := []) (gs := [_, _, _, _, _, _, _, _, _]) ?_ (by rests))
  refine .take (one_str rfl rfl rfl) ?_
  refine .take (writes_one rfl rfl (out_enum (vs := ["query", "header", "path", "cookie"]) (by kernel_rfl) (by have := h.place; simp at this ⊢; grind))) ?_
  refine .take (may_str rfl rfl rfl) ?_
  refine .take (may_bool rfl rfl rfl) ?_
  refine .take (may_bool rfl rfl rfl) ?_
  refine .take (may_map rfl rfl rfl) ?_
  refine .take (writes_table rfl rfl rfl fun k mt hk => json_media) ?_
  refine .take (writes_may rfl rfl rfl (by simp) fun st e => out_enum (by kernel_rfl) (style_mem (h.style st e))) ?_
  refine .take (may_bool rfl rfl rfl) ?_
  skips

theorem json_reference (r : String) :
    encode V31.table (.named "Reference") (fill V31.sReference [("Ref", .str r)]) = some (object [one "$ref" (.str r)]) := by
  refine encode_out (by kernel_rfl) (by decide +kernel) (.fields (gs' := []) (gs := [_]) ?_ (by rests))
  refine .take (one_str rfl rfl rfl) ?_
  skips

theorem json_paramOrRef {p : ParamOrRef Schema} (h : RefOr (ParamOk places Sc) p.ref p.param) :
    encode V31.table (.named "ParameterOrReference") (paramOrRefVal p) = some (refOr (param31 schema31) p.ref p.param) := by
  refine encode_refOr (refN := "Reference") (valN := "Parameter") (by kernel_rfl) rfl (by decide) json_reference
    (fun _ => json_param) (fun _ _ e => by cases e) (fun _ e => by cases e) h

theorem json_header {h : Header Schema} :
    encode V31.table (.named "Header") (headerVal h) = some (header schema31 h) := by
  refine encode_out (by kernel_rfl) (by decide +kernel) (.consts (.fields (gs' := []) (gs := [_, _, _, _]) ?_ (by rests)))
  refine .take (may_str rfl rfl rfl) ?_
  refine .take (may_bool rfl rfl rfl) ?_
  refine .take (may_bool rfl rfl rfl) ?_
  skips
  refine .take (may_map rfl rfl rfl) ?_
  skips

theorem json_headerOrRef {h : HeaderOrRef Schema} (ho : RefOr (HeaderOk Sc) h.ref h.header) :
    encode V31.table (.named "HeaderOrReference") (headerOrRefVal h) = some (refOr (header schema31) h.ref h.header) := by
  refine encode_refOr (refN := "Reference") (valN := "Header") (by kernel_rfl) rfl (by decide) json_reference
    (fun _ => (fun _ => json_header)) (fun _ _ e => by cases e) (fun _ e => by cases e) ho

theorem json_response {r : Response Schema} (h : ResponseOk Sc r) :
    encode V31.table (.named "Response") (responseVal r) = some (response schema31 r) := by
  refine encode_out (by kernel_rfl) (by decide +kernel) (.fields (gs' := []) (gs := [_, _, _]) ?_ (by rests))
  refine .take (one_str rfl rfl rfl) ?_
  refine .take (writes_table rfl rfl rfl fun k x hk => json_headerOrRef (h.headers k x hk)) ?_
  refine .take (writes_table rfl rfl rfl fun k mt hk => json_media) ?_
  skips

theorem json_responseOrRef {r : ResponseOrRef Schema} (h : RefOr (ResponseOk Sc) r.ref r.response) :
    encode V31.table (.named "ResponseOrReference") (responseOrRefVal r) = some (refOr (response schema31) r.ref r.response) := by
  refine encode_refOr (refN := "Reference") (valN := "Response") (by kernel_rfl) rfl (by decide) json_reference
    (fun _ => json_response) (fun _ _ e => by cases e) (fun _ e => by cases e) h

theorem json_body {b : RequestBody Schema} (h : BodyOk Sc b) :
    encode V31.table (.named "RequestBody") (bodyVal b) = some (body schema31 b) := by
  refine encode_out (by kernel_rfl) (by decide +kernel) (.fields (gs' := []) (gs := [_, _]) ?_ (by rests))
  refine .take (may_str rfl rfl rfl) ?_
  refine .take (writes_one rfl rfl ?_) ?_
  · show encode V31.table (.map (.named "MediaType")) (Pub30.mapVal (mediaVal) b.content) = _
    rw [mapVal_some h.1]
    exact encode_entries fun k mt hk => json_media
  skips

theorem json_bodyOrRef {b : RequestBodyOrRef Schema} (h : RefOr (BodyOk Sc) b.ref b.body) :
    encode V31.table (.named "RequestBodyOrReference") (bodyOrRefVal b) = some (refOr (body schema31) b.ref b.body) := by
  refine encode_refOr (refN := "Reference") (valN := "RequestBody") (by kernel_rfl) rfl (by decide) json_reference
    (fun _ => json_body) (fun _ _ e => by cases e) (fun _ e => by cases e) h

theorem json_responses {op : Operation Schema} {pl : Places} (h : OperationOk pl Sc StatusKey op) :
    encode V31.table (.named "Responses") (fill V31.sResponses [("Default", opt responseOrRefVal op.responses.default),
      ("MapOfResponseOrReferenceValues", Pub30.mapVal responseOrRefVal op.responses.codes)]) = some (responses schema31 op.responses) := by
  refine encode_out (by kernel_rfl) (by decide +kernel) (.fields (gs := [_]) (gs' := [_]) ?_ (.hidden (by rfl) (by decide +kernel)
    (part_entries fun k r hr => json_responseOrRef (h.codes k r hr).2) (by rests)))
  refine .take (writes_may rfl rfl rfl (fun _ e => by cases e) fun r hr => json_responseOrRef (h.default r hr)) ?_
  skips

theorem json_operation {op : Operation Schema} (h : OperationOk places Sc StatusKey op) :
    encode V31.table (.named "Operation") (operationVal op) = some (operation31 schema31 op) := by
  refine encode_out (by kernel_rfl) (by decide +kernel) (.fields (gs := [_, _, _, _, _, _, _, _, _]) (gs' := [_]) ?_
    (.hidden (by rfl) (by decide +kernel) (part_entries (g := fun b => .any (.bool b)) (j := .bool) (m := op.ext) fun k r hr => rfl) (by rests)))
  refine .take (writes_many rfl rfl rfl fun _ _ => rfl) ?_
  refine .take (may_str rfl rfl rfl) ?_
  refine .take (may_str rfl rfl rfl) ?_
  skips
  refine .take (may_str rfl rfl rfl) ?_
  refine .take (writes_many rfl rfl rfl fun p hp => json_paramOrRef (h.parameters p hp)) ?_
  refine .take (writes_may rfl rfl rfl (fun _ e => by cases e) fun b hb => json_bodyOrRef (h.body b hb)) ?_
  refine .take ?_ ?_
  · show Writes _ _ (responsesVal op.responses) _
    unfold responsesVal
    split
    · exact .inl ⟨omitted_nil rfl, rfl⟩
    · exact writes_ptr rfl rfl (by intro e; cases e) (json_responses h)
  skips
  refine .take (may_bool rfl rfl rfl) ?_
  refine .take (writes_many rfl rfl rfl fun p hp => json_security p) ?_
  skips

theorem json_pathItem {p : V31.PathItem Schema} (h : ItemOk Sc p) :
    encode V31.table (.named "PathItem") (pathItemVal p) = some (pathItem31 schema31 p) := by
  refine encode_out (by kernel_rfl) (by decide +kernel) (.fields (gs := [_, _, _, _, _, _, _, _, _, _]) (gs' := []) ?_ (by rests))
  have op : ∀ {f : Field} {k : String} {o : Option (Operation Schema)}, f.key = k → f.omitempty = true →
      f.ty = .ptr (.named "Operation") → o ∈ ops p → Writes V31.table f (opt operationVal o) (may k (operation31 schema31) o) :=
    fun hk hf ht hm => writes_may hk hf ht (fun _ e => by cases e) fun op e => json_operation (h.ops op (by rw [← e]; exact hm))
  refine .take (may_str rfl rfl rfl) ?_
  skips
  refine .take (writes_many rfl rfl rfl fun p hq => json_paramOrRef (h.parameters p hq)) ?_
  refine .take (op rfl rfl rfl (by simp [ops])) ?_
  refine .take (op rfl rfl rfl (by simp [ops])) ?_
  refine .take (op rfl rfl rfl (by simp [ops])) ?_
  refine .take (op rfl rfl rfl (by simp [ops])) ?_
  refine .take (op rfl rfl rfl (by simp [ops])) ?_
  refine .take (op rfl rfl rfl (by simp [ops])) ?_
  refine .take (op rfl rfl rfl (by simp [ops])) ?_
  refine .take (op rfl rfl rfl (by simp [ops])) ?_
  skips

theorem json_webhook {p : V31.PathItem Schema} (h : ItemOk Sc p) :
    encode V31.table (.named "PathItemOrReference") (webhookVal p) = some (pathItem31 schema31 p) :=
  encode_alt (by kernel_rfl) rfl (by decide) (t := .named "PathItem") (by simp [V31.sPathItemOrReference])
    (by intro e; cases e) (json_pathItem h) (by intro e; cases e)

theorem json_scheme {s : V31.SecScheme} (h : ∀ n i t, s = .apiKey n i t → i ∈ ["header", "query", "cookie"]) :
    encode V31.table (.named "SecuritySchemeOrReference") (schemeVal s) = some (scheme31 s) := by
  have key : ∀ v ms, (∃ fs, v = .struct fs) → encode V31.table (.named "SecurityScheme") v = some (.obj ms) →
      encode V31.table (.named "SecuritySchemeOrReference") (fill V31.sSecuritySchemeOrReference [("SecurityScheme", v)]) =
        some (.obj ms) := by
    intro v ms hv he
    obtain ⟨fs, rfl⟩ := hv
    exact encode_alt (by kernel_rfl) rfl (by decide) (t := .named "SecurityScheme") (by simp [V31.sSecuritySchemeOrReference])
      (by simp) he (by simp)
  have ptr : ∀ {n : String} {v : Val} {gs : List Members}, v ≠ .nil → encode V31.table (.named n) v = some (object gs) →
      ∃ j, encode V31.table (.ptr (.named n)) v = some j ∧ IsPart j ∧ objMembers j = gs.flatten :=
    fun hv he => part_object (by rw [encode_ptr _ hv]; exact he)
  cases s with
  | basic d =>
    refine key _ _ ⟨_, rfl⟩ ?_
    refine encode_out (s := V31.sSecurityScheme) (gs := [one "description" (.str d), [one "type" (.str "http"), one "scheme" (.str "basic")].flatten])
      (by kernel_rfl) (by decide +kernel) (.fields (gs := [_]) (gs' := [_]) ?_ ?_)
    · refine .take (writes_ptr rfl rfl (by intro e; cases e) (by rfl)) .nil
    · iterate 2 refine OutParts.skip (by rfl) (by decide +kernel) (by rfl) ?_
      refine .hidden (by rfl) (by decide +kernel) (ptr (by intro e; cases e) ?_) (by rests)
      exact encode_out (s := V31.sSecuritySchemeHTTP) (by kernel_rfl) (by decide +kernel) (.consts (.fields (gs := [_]) (gs' := [])
        (.take (one_str rfl rfl rfl) .nil) .nil))
  | bearer f d =>
    refine key _ _ ⟨_, rfl⟩ ?_
    have e : [one "description" (.str d), one "type" (.str "http"), one "scheme" (.str "bearer"), may "bearerFormat" .str f].flatten =
        [one "description" (.str d), [one "type" (.str "http"), one "scheme" (.str "bearer"), may "bearerFormat" .str f].flatten].flatten := by
      simp
    rw [e]
    refine encode_out (s := V31.sSecurityScheme) (gs := [one "description" (.str d), [one "type" (.str "http"), one "scheme" (.str "bearer"),
      may "bearerFormat" .str f].flatten]) (by kernel_rfl) (by decide +kernel) (.fields (gs := [_]) (gs' := [_]) ?_ ?_)
    · refine .take (writes_ptr rfl rfl (by intro e; cases e) (by rfl)) .nil
    · iterate 3 refine OutParts.skip (by rfl) (by decide +kernel) (by rfl) ?_
      refine .hidden (by rfl) (by decide +kernel) (ptr (by intro e; cases e) ?_) (by rests)
      exact encode_out (s := V31.sSecuritySchemeHTTPBearer) (by kernel_rfl) (by decide +kernel) (.consts (.fields (gs := [_, _]) (gs' := [])
        (.take (one_str rfl rfl rfl) (.take (may_str rfl rfl rfl) .nil)) .nil))
  | apiKey n i d =>
    refine key _ _ ⟨_, rfl⟩ ?_
    refine encode_out (s := V31.sSecurityScheme) (gs := [one "description" (.str d), [one "type" (.str "apiKey"), one "name" (.str n),
      one "in" (.str i)].flatten]) (by kernel_rfl) (by decide +kernel) (.fields (gs := [_]) (gs' := [_]) ?_ ?_)
    · refine .take (writes_ptr rfl rfl (by intro e; cases e) (by rfl)) .nil
    · iterate 1 refine OutParts.skip (by rfl) (by decide +kernel) (by rfl) ?_
      refine .hidden (by rfl) (by decide +kernel) (ptr (by intro e; cases e) ?_) (by rests)
      exact encode_out (s := V31.sSecuritySchemeAPIKey) (by kernel_rfl) (by decide +kernel) (.consts (.fields (gs := [_, _]) (gs' := [])
        (.take (one_str rfl rfl rfl) (.take (writes_one rfl rfl (out_enum (vs := ["query", "header", "cookie"]) (by kernel_rfl)
          (by have := h _ _ _ rfl; simp at this ⊢; grind))) .nil)) .nil))

theorem json_info {d : V31.Spec Schema} : encode V31.table (.named "Info") (fill V31.sInfo [("Title", .str d.title),
    ("Description", opt .str d.description), ("Version", .str d.version)]) = some (info d.title d.description d.version) := by
  refine encode_out (by kernel_rfl) (by decide +kernel) (.fields (gs := [_, _, _]) (gs' := []) ?_ (by rests))
  refine .take (one_str rfl rfl rfl) ?_
  skips
  refine .take (may_str rfl rfl rfl) ?_
  skips
  refine .take (one_str rfl rfl rfl) ?_
  skips


theorem json_components {d : V31.Spec Schema} (h : Published Sc d) :
    encode V31.table (.named "Components") (fill V31.sComponents [
      ("Schemas", Pub30.mapVal schemaVal d.schemas), ("SecuritySchemes", Pub30.mapVal schemeVal d.security)]) =
    some (object [table "schemas" .obj d.schemas, table "securitySchemes" scheme31 d.security]) := by
  refine encode_out (by kernel_rfl) (by decide +kernel) (.fields (gs := [_, _]) (gs' := []) ?_ (by rests))
  refine .take (writes_table rfl rfl rfl fun k s _ => json_schema s) ?_
  skips
  refine .take (writes_table rfl rfl rfl fun k s hs => json_scheme (h.security k s hs).2) ?_
  skips

theorem json_doc {d : V31.Spec Schema} (h : Published Sc d) :
    encode V31.table (.named "Spec") (docVal d) = some (doc31 d) := by
  refine encode_out (by kernel_rfl) (by decide +kernel) (.fields (gs := [_, _, _, _, _]) (gs' := []) ?_ (by rests))
  refine .take (one_str rfl rfl rfl) ?_
  refine .take (writes_one rfl rfl json_info) ?_
  skips
  refine .take (writes_may rfl rfl rfl (fun _ e => by cases e) fun m hm => ?_) ?_
  · rw [← object_one]
    refine encode_out (n := "Paths") (by kernel_rfl) (by decide +kernel) (.hidden (by rfl) (by decide +kernel)
      (part_entries (g := pathItemVal) (j := pathItem31 schema31) (m := m) fun k p hp => ?_) (by rests))
    exact json_pathItem (h.paths m hm k p hp).2
  refine .take (writes_table rfl rfl rfl fun k p hp => json_webhook (h.webhooks k p hp)) ?_
  refine .take ?_ ?_
  · show Writes _ _ (if d.schemas = [] ∧ d.security = [] then .nil else _) _
    split
    · exact .inl ⟨omitted_nil rfl, rfl⟩
    · exact writes_ptr rfl rfl (by intro e; cases e) (json_components h)
  skips

end Verif.DocJson.J31
