import Verif.Lemmas.DocJson

/-! The JSON that 3.0 documents are written as. -/

namespace Verif.DocJson
open Codec Spec Conform
open Pub30 (fill opt listVal refOrVal securityVal mapStruct places)

variable {S : Type} {Sc : S → Prop} {sv : S → Val} {sj : S → Any}

/-- How schemas are written. -/
structure Schemas (T : Table) (n : String) (Sc : S → Prop) (sv : S → Val) (sj : S → Any) : Prop where
  notNil : ∀ s, sv s ≠ .nil
  null : ∀ s, sj s ≠ .null
  out : ∀ s, Sc s → encode T (.named n) (sv s) = some (sj s)

abbrev Schemas30 (Sc : S → Prop) (sv : S → Val) (sj : S → Any) := Schemas V30.table "SchemaOrRef" Sc sv sj

/-- Leaves out the fields that are nil. -/
macro "skips" : tactic => `(tactic| ((repeat (refine Out.skip (by rfl) ?_)); try exact Out.nil))

/-- Leaves out the parts that are nil. -/
macro "rests" : tactic => `(tactic| ((repeat (refine OutParts.skip (by rfl) (by decide +kernel) (by rfl) ?_)); exact OutParts.nil))

theorem object_one (ms : Members) : object [ms] = .obj ms := by simp [object]

theorem part_object {T : Table} {ty : Ty} {v : Val} {gs : List Members} (h : encode T ty v = some (object gs)) :
    ∃ j, encode T ty v = some j ∧ IsPart j ∧ objMembers j = gs.flatten := ⟨_, h, .inr ⟨_, rfl⟩, rfl⟩

namespace J30
open Verif.Pub30

theorem json_media (hS : Schemas30 Sc sv sj) {mt : MediaType S} (h : MediaOk (Always Sc) mt) :
    encode V30.table (.named "MediaType") (mediaVal sv mt) = some (media (may "schema" sj) mt) := by
  refine encode_out (by kernel_rfl) (by decide +kernel) (.fields (gs' := []) (gs := [_]) ?_ (by rests))
  skips
  refine .take (writes_may rfl rfl rfl hS.notNil fun s hs => hS.out s (h.2 s hs)) ?_
  skips

theorem may_str {T : Table} {f : Field} {k : String} {o : Option String} (hk : f.key = k) (hf : f.omitempty = true)
    (ht : f.ty = .ptr .str) : Writes T f (opt .str o) (may k .str o) :=
  writes_may hk hf ht (by simp) fun _ _ => rfl

theorem may_bool {T : Table} {f : Field} {k : String} {o : Option Bool} (hk : f.key = k) (hf : f.omitempty = true)
    (ht : f.ty = .ptr .bool) : Writes T f (opt .bool o) (may k .bool o) :=
  writes_may hk hf ht (by simp) fun _ _ => rfl

theorem one_str {T : Table} {f : Field} {k : String} {s : String} (hk : f.key = k) (hf : f.omitempty = false)
    (ht : f.ty = .str) : Writes T f (.str s) (one k (.str s)) :=
  writes_one hk hf (by rw [ht]; rfl)

theorem out_enum {T : Table} {n : String} {vs : List String} (hn : GoMap.get? T n = some (.enum vs)) {s : String} (h : s ∈ vs) :
    encode T (.named n) (.str s) = some (.str s) := by
  rw [encode_enum hn, if_pos (List.contains_iff_mem.2 h)]

theorem param_content {pl : Places} {Sc : Role → S → Prop} {p : Parameter S} (h : ParamOk pl Sc p) {k : String} {mt : MediaType S} (hk : (k, mt) ∈ p.content) :
    MediaOk Sc mt := by
  rcases h.value with ⟨_, _, _, e⟩ | ⟨_, _, _, e, hm⟩
  · rw [e] at hk; cases hk
  · rw [e] at hk
    cases List.mem_singleton.1 hk
    exact hm

theorem param_schema {pl : Places} {p : Parameter S} (h : ParamOk pl (Always Sc) p) {s : S} (hs : p.schema = some s) : Sc s := by
  rcases h.value with ⟨s', e, h', _⟩ | ⟨e, _⟩
  · rw [hs] at e; cases e; exact h'
  · rw [hs] at e; cases e

theorem json_param (hS : Schemas30 Sc sv sj) {p : Parameter S} (h : ParamOk places (Always Sc) p) :
    encode V30.table (.named "Parameter") (paramVal sv p) = some (param30 (may "schema" sj) p) := by
  refine encode_out (by kernel_rfl) (by decide +kernel) (.fields (gs' := []) (gs := [_, _, _, _, _, _, _, _, _]) ?_ (by rests))
  refine .take (one_str rfl rfl rfl) ?_
  refine .take (writes_one rfl rfl (out_enum (by kernel_rfl) h.place)) ?_
  refine .take (may_str rfl rfl rfl) ?_
  refine .take (may_bool rfl rfl rfl) ?_
  refine .take (may_bool rfl rfl rfl) ?_
  skips
  refine .take (may_str rfl rfl rfl) ?_
  refine .take (may_bool rfl rfl rfl) ?_
  skips
  refine .take (writes_may rfl rfl rfl hS.notNil fun s hs => hS.out s (param_schema h hs)) ?_
  refine .take (writes_table rfl rfl rfl fun k mt hk => json_media hS (param_content h hk)) ?_
  skips

theorem json_paramOrRef (hS : Schemas30 Sc sv sj) {p : ParamOrRef S} (h : RefOr (ParamOk places (Always Sc)) p.ref p.param) :
    encode V30.table (.named "ParameterOrRef") (paramOrRefVal sv p) = some (refOr (param30 (may "schema" sj)) p.ref p.param) := by
  refine encode_refOr (refN := "ParameterReference") (valN := "Parameter") (by kernel_rfl) rfl (by decide) ?_
    (fun _ => json_param hS) (fun _ _ e => by cases e) (fun _ e => by cases e) h
  intro r
  exact encode_out (by kernel_rfl) (by decide +kernel)
    (.fields (gs' := []) (gs := [_]) (.take (one_str rfl rfl rfl) .nil) (by rests))

theorem json_header (hS : Schemas30 Sc sv sj) {h : Header S} (ho : HeaderOk (Always Sc) h) :
    encode V30.table (.named "Header") (headerVal sv h) = some (header (may "schema" sj) h) := by
  refine encode_out (by kernel_rfl) (by decide +kernel) (.consts (.fields (gs' := []) (gs := [_, _, _, _]) ?_ (by rests)))
  refine .take (may_str rfl rfl rfl) ?_
  refine .take (may_bool rfl rfl rfl) ?_
  refine .take (may_bool rfl rfl rfl) ?_
  skips
  refine .take (writes_may rfl rfl rfl hS.notNil fun s hs => hS.out s ?_) ?_
  · obtain ⟨s', e, h'⟩ := ho
    rw [hs] at e; cases e; exact h'
  skips

theorem json_headerOrRef (hS : Schemas30 Sc sv sj) {h : HeaderOrRef S} (ho : RefOr (HeaderOk (Always Sc)) h.ref h.header) :
    encode V30.table (.named "HeaderOrRef") (headerOrRefVal sv h) = some (refOr (header (may "schema" sj)) h.ref h.header) := by
  refine encode_refOr (refN := "HeaderReference") (valN := "Header") (by kernel_rfl) rfl (by decide) ?_
    (fun _ => json_header hS) (fun _ _ e => by cases e) (fun _ e => by cases e) ho
  intro r
  exact encode_out (by kernel_rfl) (by decide +kernel)
    (.fields (gs' := []) (gs := [_]) (.take (one_str rfl rfl rfl) .nil) (by rests))

theorem json_response (hS : Schemas30 Sc sv sj) {r : Response S} (h : ResponseOk (Always Sc) r) :
    encode V30.table (.named "Response") (responseVal sv r) = some (response (may "schema" sj) r) := by
  refine encode_out (by kernel_rfl) (by decide +kernel) (.fields (gs' := []) (gs := [_, _, _]) ?_ (by rests))
  refine .take (one_str rfl rfl rfl) ?_
  refine .take (writes_table rfl rfl rfl fun k x hk => json_headerOrRef hS (h.headers k x hk)) ?_
  refine .take (writes_table rfl rfl rfl fun k mt hk => json_media hS (h.content.2 k mt hk)) ?_
  skips

theorem json_responseOrRef (hS : Schemas30 Sc sv sj) {r : ResponseOrRef S} (h : RefOr (ResponseOk (Always Sc)) r.ref r.response) :
    encode V30.table (.named "ResponseOrRef") (responseOrRefVal sv r) = some (refOr (response (may "schema" sj)) r.ref r.response) := by
  refine encode_refOr (refN := "ResponseReference") (valN := "Response") (by kernel_rfl) rfl (by decide) ?_
    (fun _ => json_response hS) (fun _ _ e => by cases e) (fun _ e => by cases e) h
  intro r
  exact encode_out (by kernel_rfl) (by decide +kernel)
    (.fields (gs' := []) (gs := [_]) (.take (one_str rfl rfl rfl) .nil) (by rests))

theorem mapVal_some {A : Type} {g : A → Val} {m : GoMap A} (hm : m ≠ []) :
    Pub30.mapVal g m = .map (m.map (fun p => (p.1, g p.2))) := by
  cases m with
  | nil => exact absurd rfl hm
  | cons p m => rfl

theorem json_body (hS : Schemas30 Sc sv sj) {b : RequestBody S} (h : BodyOk (Always Sc) b) :
    encode V30.table (.named "RequestBody") (bodyVal sv b) = some (body (may "schema" sj) b) := by
  refine encode_out (by kernel_rfl) (by decide +kernel) (.fields (gs' := []) (gs := [_, _]) ?_ (by rests))
  refine .take (may_str rfl rfl rfl) ?_
  refine .take (writes_one rfl rfl ?_) ?_
  · show encode V30.table (.map (.named "MediaType")) (Pub30.mapVal (mediaVal sv) b.content) = _
    rw [mapVal_some h.1]
    exact encode_entries fun k mt hk => json_media hS (h.2.2 k mt hk)
  skips

theorem json_bodyOrRef (hS : Schemas30 Sc sv sj) {b : RequestBodyOrRef S} (h : RefOr (BodyOk (Always Sc)) b.ref b.body) :
    encode V30.table (.named "RequestBodyOrRef") (bodyOrRefVal sv b) = some (refOr (body (may "schema" sj)) b.ref b.body) := by
  refine encode_refOr (refN := "RequestBodyReference") (valN := "RequestBody") (by kernel_rfl) rfl (by decide) ?_
    (fun _ => json_body hS) (fun _ _ e => by cases e) (fun _ e => by cases e) h
  intro r
  exact encode_out (by kernel_rfl) (by decide +kernel)
    (.fields (gs' := []) (gs := [_]) (.take (one_str rfl rfl rfl) .nil) (by rests))

theorem json_responses (hS : Schemas30 Sc sv sj) {op : Operation S} {pl : Places} (h : OperationOk pl (Always Sc) StatusKey op) :
    encode V30.table (.named "Responses") (responsesVal sv op.responses) = some (responses (may "schema" sj) op.responses) := by
  refine encode_out (by kernel_rfl) (by decide +kernel) (.fields (gs := [_]) (gs' := [_]) ?_ (.hidden (by rfl) (by decide +kernel)
    (part_entries fun k r hr => json_responseOrRef hS (h.codes k r hr).2) (by rests)))
  refine .take (writes_may rfl rfl rfl (fun _ e => by cases e) fun r hr => json_responseOrRef hS (h.default r hr)) ?_
  skips

theorem json_security {T : Table} (p : String × List String) :
    encode T (.map (.slice .str)) (securityVal p) = some (object [one p.1 (.arr (p.2.map .str))]) := by
  rw [object_one]
  unfold securityVal
  rw [encode_map]
  simp only [mapAll]
  rw [encode_list (j := Any.str) (fun _ _ => rfl)]
  rfl

theorem json_operation (hS : Schemas30 Sc sv sj) {op : Operation S} (h : OperationOk places (Always Sc) StatusKey op) :
    encode V30.table (.named "Operation") (operationVal sv op) = some (operation30 (may "schema" sj) op) := by
  refine encode_out (by kernel_rfl) (by decide +kernel) (.fields (gs := [_, _, _, _, _, _, _, _, _]) (gs' := [_]) ?_
    (.hidden (by rfl) (by decide +kernel) (part_entries (g := fun b => .any (.bool b)) (j := .bool) (m := op.ext) fun k r hr => rfl) (by rests)))
  refine .take (writes_many rfl rfl rfl fun _ _ => rfl) ?_
  refine .take (may_str rfl rfl rfl) ?_
  refine .take (may_str rfl rfl rfl) ?_
  skips
  refine .take (may_str rfl rfl rfl) ?_
  refine .take (writes_many rfl rfl rfl fun p hp => json_paramOrRef hS (h.parameters p hp)) ?_
  refine .take (writes_may rfl rfl rfl (fun _ e => by cases e) fun b hb => json_bodyOrRef hS (h.body b hb)) ?_
  refine .take (writes_one rfl rfl (json_responses hS h)) ?_
  skips
  refine .take (may_bool rfl rfl rfl) ?_
  refine .take (writes_many rfl rfl rfl fun p hp => json_security p) ?_
  skips

theorem json_pathItem (hS : Schemas30 Sc sv sj) {p : V30.PathItem S} (hp : ∀ q ∈ p.parameters, RefOr (ParamOk places (Always Sc)) q.ref q.param)
    (ho : ∀ m op, (m, op) ∈ p.ops → OperationOk places (Always Sc) StatusKey op) :
    encode V30.table (.named "PathItem") (pathItemVal sv p) = some (pathItem30 (may "schema" sj) p) := by
  refine encode_out (by kernel_rfl) (by decide +kernel) (.fields (gs := [_, _]) (gs' := [_]) ?_
    (.hidden (by rfl) (by decide +kernel) (part_entries fun k r hr => json_operation hS (ho k r hr)) (by rests)))
  skips
  refine .take (may_str rfl rfl rfl) ?_
  skips
  refine .take (writes_many rfl rfl rfl fun p hq => json_paramOrRef hS (hp p hq)) ?_
  skips

theorem json_scheme {s : V30.SecScheme} (h : ∀ n i t, s = .apiKey n i t → i ∈ ["header", "query", "cookie"]) :
    encode V30.table (.named "SecuritySchemeOrRef") (schemeVal s) = some (scheme30 s) := by
  have key : ∀ v ms, (∃ fs, v = .struct fs) → encode V30.table (.named "SecurityScheme") v = some (.obj ms) →
      encode V30.table (.named "SecuritySchemeOrRef") (fill V30.sSecuritySchemeOrRef [("SecurityScheme", v)]) = some (.obj ms) := by
    intro v ms hv he
    obtain ⟨fs, rfl⟩ := hv
    exact encode_alt (by kernel_rfl) rfl (by decide) (t := .named "SecurityScheme") (by simp [V30.sSecuritySchemeOrRef]) (by simp)
      he (by simp)
  have alt : ∀ go t v ms, (∃ fs, v = .struct fs) → ⟨go, .ptr t⟩ ∈ V30.sSecurityScheme.oneOf → encode V30.table t v = some (.obj ms) →
      encode V30.table (.named "SecurityScheme") (fill V30.sSecurityScheme [(go, v)]) = some (.obj ms) := by
    intro go t v ms hv hm he
    obtain ⟨fs, rfl⟩ := hv
    exact encode_alt (by kernel_rfl) rfl (by decide) (t := t) hm (by simp) he (by simp)
  cases s with
  | basic d =>
    refine key _ _ ⟨_, rfl⟩ (alt "HTTPSecurityScheme" (.named "HTTPSecurityScheme") _ _ ⟨_, rfl⟩ (by simp [V30.sSecurityScheme]) ?_)
    refine encode_out (by kernel_rfl) (by decide +kernel) (.consts (.fields (gs := [_, _]) (gs' := []) ?_ (by rests)))
    refine .take (one_str rfl rfl rfl) ?_
    skips
    refine .take (writes_ptr rfl rfl (by intro e; cases e) (by rfl)) ?_
    skips
  | bearer f d =>
    refine key _ _ ⟨_, rfl⟩ (alt "HTTPSecurityScheme" (.named "HTTPSecurityScheme") _ _ ⟨_, rfl⟩ (by simp [V30.sSecurityScheme]) ?_)
    refine encode_out (by kernel_rfl) (by decide +kernel) (.consts (.fields (gs := [_, _, _]) (gs' := []) ?_ (by rests)))
    refine .take (one_str rfl rfl rfl) ?_
    refine .take (may_str rfl rfl rfl) ?_
    refine .take (writes_ptr rfl rfl (by intro e; cases e) (by rfl)) ?_
    skips
  | apiKey n i d =>
    refine key _ _ ⟨_, rfl⟩ (alt "APIKeySecurityScheme" (.named "APIKeySecurityScheme") _ _ ⟨_, rfl⟩
      (by simp [V30.sSecurityScheme]) ?_)
    refine encode_out (by kernel_rfl) (by decide +kernel) (.consts (.fields (gs := [_, _, _]) (gs' := []) ?_ (by rests)))
    refine .take (one_str rfl rfl rfl) ?_
    refine .take (writes_one rfl rfl (out_enum (by kernel_rfl) (h _ _ _ rfl))) ?_
    refine .take (writes_ptr rfl rfl (by intro e; cases e) (by rfl)) ?_
    skips

theorem json_info {d : V30.Spec S} : encode V30.table (.named "Info") (fill V30.sInfo [("Title", .str d.title),
    ("Description", opt .str d.description), ("Version", .str d.version)]) = some (info d.title d.description d.version) := by
  refine encode_out (by kernel_rfl) (by decide +kernel) (.fields (gs := [_, _, _]) (gs' := []) ?_ (by rests))
  refine .take (one_str rfl rfl rfl) ?_
  refine .take (may_str rfl rfl rfl) ?_
  skips
  refine .take (one_str rfl rfl rfl) ?_
  skips

theorem json_components (hS : Schemas30 Sc sv sj) {d : V30.Spec S} (h : Published (Always Sc) d) :
    encode V30.table (.named "Components") (fill V30.sComponents [
      ("Schemas", mapStruct V30.sComponentsSchemas "MapOfSchemaOrRefValues" sv d.schemas),
      ("SecuritySchemes", mapStruct V30.sComponentsSecuritySchemes "MapOfSecuritySchemeOrRefValues" schemeVal d.security)]) =
    some (object [table "schemas" sj d.schemas, table "securitySchemes" scheme30 d.security]) := by
  have struct : ∀ {A : Type} {f : Field} {k n go : String} {s : Codec.Struct} {g : A → Val} {j : A → Any} {m : GoMap A},
      f.key = k → f.omitempty = true → f.ty = .ptr (.named n) →
      (∀ p q, m = p :: q → encode V30.table (.named n) (fill s [(go, Pub30.mapVal g (p :: q))]) = some (object [entries j (p :: q)])) →
      Writes V30.table f (mapStruct s go g m) (table k j m) := by
    intro A f k n go s g j m hk hf ht h
    cases m with
    | nil => exact .inl ⟨omitted_nil (by simp [nilable, hf, ht]), rfl⟩
    | cons p q =>
      have h := h p q rfl
      rw [object_one] at h
      exact writes_ptr hk ht (by intro e; cases e) h
  refine encode_out (by kernel_rfl) (by decide +kernel) (.fields (gs := [_, _]) (gs' := []) ?_ (by rests))
  skips
  refine .take (struct rfl rfl rfl ?_) ?_
  · intro p q e
    refine encode_out (by kernel_rfl) (by decide +kernel) (.hidden (by rfl) (by decide +kernel)
      (part_entries (g := sv) (j := sj) (m := p :: q) fun k s hs => ?_) (by rests))
    rw [← e] at hs
    exact hS.out s (h.schemas k s hs).2
  skips
  refine .take (struct rfl rfl rfl ?_) ?_
  · intro p q e
    refine encode_out (by kernel_rfl) (by decide +kernel) (.hidden (by rfl) (by decide +kernel)
      (part_entries (g := schemeVal) (j := scheme30) (m := p :: q) fun k s hs => ?_) (by rests))
    rw [← e] at hs
    exact json_scheme (h.security k s hs).2
  skips

theorem json_doc (hS : Schemas30 Sc sv sj) {d : V30.Spec S} (h : Published (Always Sc) d) :
    encode V30.table (.named "Spec") (docVal sv d) = some (doc30 sj d) := by
  refine encode_out (by kernel_rfl) (by decide +kernel) (.fields (gs := [_, _, _, _]) (gs' := []) ?_ (by rests))
  refine .take (one_str rfl rfl rfl) ?_
  refine .take (writes_one rfl rfl json_info) ?_
  skips
  refine .take (writes_one rfl rfl ?_) ?_
  · rw [← object_one]
    refine encode_out (n := "Paths") (by kernel_rfl) (by decide +kernel) (.hidden (by rfl) (by decide +kernel)
      (part_entries fun k p hp => ?_) (by rests))
    obtain ⟨_, _, h3, h4⟩ := h.paths k p hp
    exact json_pathItem hS h3 fun m op hm => (h4 m op hm).2
  skips
  refine .take ?_ .nil
  show Writes _ _ (if d.schemas = [] ∧ d.security = [] then .nil else _) _
  split
  · exact .inl ⟨omitted_nil rfl, rfl⟩
  · exact writes_ptr rfl rfl (by intro e; cases e) (json_components hS h)

end J30
end Verif.DocJson
