import Verif.Spec.Rest30
import Verif.Props.DocJson
import Verif.Props.Params

/-!
# The keywords of the 3.0 meta-schema that `Verif.Spec.Meta30` skips (C106)
-/

namespace Verif.Rest30
open Conform Pub30 DocJson Codec ParamSpec

variable {S : Type}

/-! ## Members of the JSON of a document -/

theorem mem_one {k k' : String} {x y : Any} : (k, x) ∈ one k' y ↔ k = k' ∧ x = y := by
  simp [one]

theorem mem_may {A : Type} {k k' : String} {f : A → Any} {o : Option A} {x : Any} :
    (k, x) ∈ may k' f o ↔ k = k' ∧ ∃ a, o = some a ∧ x = f a := by
  cases o <;> simp [may]

theorem mem_many {A : Type} {k k' : String} {f : A → Any} {l : List A} {x : Any} :
    (k, x) ∈ many k' f l ↔ k = k' ∧ l ≠ [] ∧ x = .arr (l.map f) := by
  cases l <;> simp [many]

theorem mem_table {A : Type} {k k' : String} {f : A → Any} {m : GoMap A} {x : Any} :
    (k, x) ∈ table k' f m ↔ k = k' ∧ m ≠ [] ∧ x = .obj (DocJson.entries f m) := by
  cases m <;> simp [table]

theorem mem_entries {A : Type} {k : String} {f : A → Any} {m : GoMap A} {x : Any} :
    (k, x) ∈ DocJson.entries f m ↔ ∃ a, (k, a) ∈ m ∧ x = f a := by
  simp only [DocJson.entries, List.mem_map, Prod.mk.injEq]
  constructor
  · rintro ⟨⟨k', a⟩, h, rfl, rfl⟩; exact ⟨a, h, rfl⟩
  · rintro ⟨a, h, rfl⟩; exact ⟨(k, a), h, rfl, rfl⟩

theorem member_object {gs : List Members} {k : String} {x : Any} :
    Member (object gs) k x ↔ ∃ g ∈ gs, (k, x) ∈ g := by
  simp [Member, object, List.mem_flatten]

theorem member_obj {ms : Members} {k : String} {x : Any} : Member (.obj ms) k x ↔ (k, x) ∈ ms := by
  simp [Member]

/-! ## Documents -/

/-- What the calls see to. -/
structure Tidy (d : V30.Spec S) : Prop where
  openapi : d.openapi = "3.0.3"
  ops : ∀ k p, (k, p) ∈ d.paths → ∀ m op, (m, op) ∈ p.ops → HasResponse op ∧ UniqueParams op.parameters

theorem tidy_setup {d : V30.Spec S} (h : Tidy d) {method path : String} {fs : List (Setup S)}
    (hf : ∀ op op', runSetups fs op = (op', none) → HasResponse op') : Tidy (d.setupOperation method path fs).1 := by
  simp only [V30.Spec.setupOperation]
  split
  · exact h
  · rename_i r hr
    have hitem : ∀ m op, (m, op) ∈ (d.pathItem r.path).ops → HasResponse op ∧ UniqueParams op.parameters := by
      unfold V30.Spec.pathItem
      cases hg : d.paths.get? r.path with
      | none => simp
      | some p => exact h.ops _ p (GoMap.mem_of_get? hg)
    split
    · exact h
    · rename_i op hop
      split
      · exact h
      · rename_i hv
        refine ⟨h.openapi, ?_⟩
        refine forall_set (P := fun _ (p : V30.PathItem S) => ∀ m op, (m, op) ∈ p.ops →
          HasResponse op ∧ UniqueParams op.parameters) h.ops ?_
        exact forall_set (P := fun _ op => HasResponse op ∧ UniqueParams op.parameters) hitem
          ⟨hf _ _ hop, (C05_validation_sound _ _ hv).1⟩

theorem hasResponse_some (op : Operation S) : HasResponse (ensureSomeResponse op) := by
  unfold ensureSomeResponse HasResponse
  split
  · right
    intro e
    have := GoMap.get?_set (op.responses.codes) "204" "204" ({ response := some { description := "No Content" } } : ResponseOrRef S)
    replace e : GoMap.set op.responses.codes "204" ({ response := some { description := "No Content" } } : ResponseOrRef S) = [] := e
    rw [e] at this
    simp at this
  · rename_i h
    rcases Classical.em (op.responses.default = none) with hd | hd
    · right
      intro e
      exact h ⟨by rw [e]; rfl, hd⟩
    · exact .inl hd

theorem tidy_add {d : V30.Spec S} (h : Tidy d) {method path : String} {op : Operation S} :
    Tidy (d.addOperation method path op).1 := by
  simp only [V30.Spec.addOperation]
  split
  · exact h
  · refine tidy_setup h ?_
    intro o o' e
    simp only [runSetups, Prod.mk.injEq, and_true] at e
    rw [← e]
    exact hasResponse_some op

theorem tidy_answered {v : Ver S} {Js : Role → JS → Prop} {Sc : Role → S → Prop} {d : V30.Spec S}
    (h : Answered v Js Sc d) : Tidy d := by
  induction h with
  | new => exact ⟨rfl, by simp⟩
  | title _ _ h => exact ⟨h.openapi, h.ops⟩
  | description _ _ h => exact ⟨h.openapi, h.ops⟩
  | version _ _ h => exact ⟨h.openapi, h.ops⟩
  | @reflect d env oc _ _ _ h =>
    simp only [V30.addOperation]
    split
    · rename_i s _
      exact tidy_add (d := { d with schemas := s.schemas }) ⟨h.openapi, h.ops⟩
    · exact ⟨h.openapi, h.ops⟩
  | add m p op _ _ _ h => exact tidy_add h
  | setup m p fs _ _ hf _ h => exact tidy_setup h hf
  | basic n t _ _ h => exact ⟨h.openapi, h.ops⟩
  | bearer n f t _ _ h => exact ⟨h.openapi, h.ops⟩
  | apiKey n f p t _ _ _ h => exact ⟨h.openapi, h.ops⟩

theorem built_answered {v : Ver S} {Js : Role → JS → Prop} {Sc : Role → S → Prop} {d : V30.Spec S}
    (h : Answered v Js Sc d) : Built v Js Sc d := by
  induction h with
  | new => exact .new
  | title t _ h => exact .title t h
  | description t _ h => exact .description t h
  | version t _ h => exact .version t h
  | reflect env oc _ ho hp h => exact .reflect env oc h ho hp
  | add m p op _ ho hp h => exact .add m p op h ho hp
  | setup m p fs _ ho _ hp h => exact .setup m p fs h ho hp
  | basic n t _ hn h => exact .basic n t h hn
  | bearer n f t _ hn h => exact .bearer n f t h hn
  | apiKey n f p t _ hn hp h => exact .apiKey n f p t h hn hp

/-! ## From documents to their JSON -/

section
variable {schema : S → Any} {d : V30.Spec S} {Sc : Role → S → Prop}

/-- The schema member. -/
abbrev sm (schema : S → Any) : Option S → Members := may "schema" schema

theorem operation_of (hp : Published Sc d) {o : Any} (h : IsOperation (doc30 schema d) o) :
    ∃ k p m op, (k, p) ∈ d.paths ∧ (m, op) ∈ p.ops ∧ OperationOk places Sc StatusKey op ∧ o = operation30 (sm schema) op := by
  obtain ⟨path, method, hm, ps, item, h1, h2, h3⟩ := h
  simp only [doc30, member_object, List.mem_cons, List.not_mem_nil, or_false, exists_eq_or_imp, exists_eq_left, mem_one] at h1
  rcases h1 with h1 | h1 | h1 | h1
  · exact absurd h1.1 (by decide)
  · exact absurd h1.1 (by decide)
  · obtain ⟨-, rfl⟩ := h1
    rw [member_obj, mem_entries] at h2
    obtain ⟨p, hpm, rfl⟩ := h2
    simp only [pathItem30, member_object, List.mem_cons, List.not_mem_nil, or_false, exists_eq_or_imp, exists_eq_left, mem_may,
      mem_many, mem_entries] at h3
    rcases h3 with h3 | h3 | h3
    · rw [h3.1] at hm; exact absurd hm (by decide)
    · rw [h3.1] at hm; exact absurd hm (by decide)
    · obtain ⟨op, hop, rfl⟩ := h3
      exact ⟨path, p, method, op, hpm, hop, ((hp.paths _ _ hpm).2.2.2 _ _ hop).2, rfl⟩
  · split at h1
    · cases h1
    · rw [mem_one] at h1
      exact absurd h1.1 (by decide)

theorem not_ext {pl : Places} {op : Operation S} (ho : OperationOk pl Sc StatusKey op) {k : String} {x : Any}
    (hk : ¬ "x-".toList <+: k.toList) : (k, x) ∉ DocJson.entries Any.bool op.ext := by
  intro h
  obtain ⟨b, hb, -⟩ := mem_entries.mp h
  exact hk (ho.ext _ _ hb)

theorem parameters_of {op : Operation S} (ho : OperationOk places Sc StatusKey op) {xs : List Any}
    (h : Member (operation30 (sm schema) op) "parameters" (.arr xs)) :
    xs = op.parameters.map (fun p => refOr (param30 (sm schema)) p.ref p.param) := by
  have hx := fun x => not_ext (x := x) ho (k := "parameters") (by decide)
  simp only [operation30, operation, member_object, List.mem_cons, List.not_mem_nil, or_false, exists_eq_or_imp, exists_eq_left,
    mem_many, mem_may, mem_one, hx] at h
  simp at h
  exact h.2

theorem responses_of {op : Operation S} (ho : OperationOk places Sc StatusKey op) {rs : Any} :
    Member (operation30 (sm schema) op) "responses" rs ↔ rs = responses (sm schema) op.responses := by
  have hx := fun x => not_ext (x := x) ho (k := "responses") (by decide)
  simp only [operation30, operation, member_object, List.mem_cons, List.not_mem_nil, or_false, exists_eq_or_imp, exists_eq_left,
    mem_many, mem_may, mem_one, hx]
  simp

theorem body_of {op : Operation S} (ho : OperationOk places Sc StatusKey op) {x : Any}
    (h : Member (operation30 (sm schema) op) "requestBody" x) :
    ∃ b, op.requestBody = some b ∧ x = refOr (body (sm schema)) b.ref b.body := by
  have hx := fun x => not_ext (x := x) ho (k := "requestBody") (by decide)
  simp only [operation30, operation, member_object, List.mem_cons, List.not_mem_nil, or_false, exists_eq_or_imp, exists_eq_left,
    mem_many, mem_may, mem_one, hx] at h
  simp at h
  exact h

theorem member_ref {r k : String} {x : Any} (h : Member (object [one "$ref" (.str r)]) k x) : k = "$ref" := by
  simp only [member_object, List.mem_cons, List.not_mem_nil, or_false, exists_eq_left, mem_one] at h
  exact h.1

/-- A value that may be a reference, if it has a member other than `$ref`. -/
theorem refOr_of {A : Type} {f : A → Any} {Ok : A → Prop} {ref : Option String} {value : Option A} (h : RefOr Ok ref value) :
    (∃ r, refOr f ref value = object [one "$ref" (.str r)]) ∨ ∃ a, value = some a ∧ Ok a ∧ refOr f ref value = f a := by
  rcases h with ⟨r, rfl, rfl⟩ | ⟨a, rfl, rfl, ha⟩
  · exact .inl ⟨r, rfl⟩
  · exact .inr ⟨a, rfl, ha, rfl⟩

theorem param_of (hp : Published Sc d) {x : Any} (h : IsParameter (doc30 schema d) x) :
    (∃ r, x = object [one "$ref" (.str r)]) ∨ ∃ p, ParamOk places Sc p ∧ x = param30 (sm schema) p := by
  obtain ⟨o, xs, ho, hm, hx⟩ := h
  obtain ⟨k, pi, m, op, -, -, hop, rfl⟩ := operation_of hp ho
  rw [parameters_of hop hm, List.mem_map] at hx
  obtain ⟨q, hq, rfl⟩ := hx
  rcases refOr_of (f := param30 (sm schema)) (hop.parameters q hq) with ⟨r, e⟩ | ⟨p, -, hok, e⟩
  · exact .inl ⟨r, e⟩
  · exact .inr ⟨p, hok, e⟩

theorem response_of (hp : Published Sc d) {x : Any} (h : IsResponse (doc30 schema d) x) :
    (∃ r, x = object [one "$ref" (.str r)]) ∨ ∃ r, ResponseOk Sc r ∧ x = response (sm schema) r := by
  obtain ⟨o, rs, k, ho, hm, hx⟩ := h
  obtain ⟨k', pi, m, op, -, -, hop, rfl⟩ := operation_of hp ho
  rw [responses_of hop] at hm
  subst hm
  simp only [responses, member_object, List.mem_cons, List.not_mem_nil, or_false, exists_eq_or_imp, exists_eq_left, mem_may,
    mem_entries] at hx
  rcases hx with ⟨-, r, hr, rfl⟩ | ⟨r, hr, rfl⟩
  · rcases refOr_of (f := response (sm schema)) (hop.default r hr) with ⟨r, e⟩ | ⟨p, -, hok, e⟩
    · exact .inl ⟨r, e⟩
    · exact .inr ⟨p, hok, e⟩
  · rcases refOr_of (f := response (sm schema)) (hop.codes _ r hr).2 with ⟨r, e⟩ | ⟨p, -, hok, e⟩
    · exact .inl ⟨r, e⟩
    · exact .inr ⟨p, hok, e⟩

theorem header_of (hp : Published Sc d) {x : Any} (h : IsHeader (doc30 schema d) x) :
    (∃ r, x = object [one "$ref" (.str r)]) ∨ ∃ p, HeaderOk Sc p ∧ x = header (sm schema) p := by
  obtain ⟨r, hs, k, hr, hm, hx⟩ := h
  rcases response_of hp hr with ⟨r, rfl⟩ | ⟨r, hok, rfl⟩
  · exact absurd (member_ref hm) (by decide)
  · simp only [response, member_object, List.mem_cons, List.not_mem_nil, or_false, exists_eq_or_imp, exists_eq_left, mem_table,
      mem_one] at hm
    simp at hm
    obtain ⟨-, rfl⟩ := hm
    rw [member_obj, mem_entries] at hx
    obtain ⟨q, hq, rfl⟩ := hx
    rcases refOr_of (f := header (sm schema)) (hok.headers _ q hq) with ⟨r, e⟩ | ⟨p, -, hok, e⟩
    · exact .inl ⟨r, e⟩
    · exact .inr ⟨p, hok, e⟩

theorem media_of (hp : Published Sc d) {x : Any} (h : IsMedia (doc30 schema d) x) : ∃ mt, x = media (sm schema) mt := by
  obtain ⟨y, c, k, hy, hc, hx⟩ := h
  have key : ∃ m : GoMap (MediaType S), c = .obj (DocJson.entries (media (sm schema)) m) := by
    rcases hy with hy | hy | ⟨o, ho, hb⟩
    · rcases param_of hp hy with ⟨r, rfl⟩ | ⟨p, -, rfl⟩
      · exact absurd (member_ref hc) (by decide)
      · simp only [param30, member_object, List.mem_cons, List.not_mem_nil, or_false, exists_eq_or_imp, exists_eq_left, mem_table,
          mem_one, mem_may] at hc
        simp at hc
        exact ⟨_, hc.2⟩
    · rcases response_of hp hy with ⟨r, rfl⟩ | ⟨p, -, rfl⟩
      · exact absurd (member_ref hc) (by decide)
      · simp only [response, member_object, List.mem_cons, List.not_mem_nil, or_false, exists_eq_or_imp, exists_eq_left, mem_table,
          mem_one] at hc
        simp at hc
        exact ⟨_, hc.2⟩
    · obtain ⟨k', pi, m, op, -, -, hop, rfl⟩ := operation_of hp ho
      obtain ⟨b, hbb, rfl⟩ := body_of hop hb
      rcases refOr_of (f := body (sm schema)) (hop.body b hbb) with ⟨r, e⟩ | ⟨p, -, -, e⟩
      · rw [e] at hc
        exact absurd (member_ref hc) (by decide)
      · rw [e] at hc
        simp only [body, member_object, List.mem_cons, List.not_mem_nil, or_false, exists_eq_or_imp, exists_eq_left, mem_one,
          mem_may] at hc
        simp at hc
        exact ⟨_, hc⟩
  obtain ⟨m, rfl⟩ := key
  rw [member_obj, mem_entries] at hx
  obtain ⟨mt, -, rfl⟩ := hx
  exact ⟨mt, rfl⟩

theorem member_param {p : Parameter S} {k : String} {x : Any} (h : Member (param30 (sm schema) p) k x) :
    k ∈ ["name", "in", "description", "required", "deprecated", "style", "explode", "schema", "content"] := by
  simp only [param30, member_object, List.mem_cons, List.not_mem_nil, or_false, exists_eq_or_imp, exists_eq_left, mem_one, mem_may,
    mem_table] at h ⊢
  rcases h with h | h | h | h | h | h | h | h | h <;> simp [h.1]

theorem name_param {p : Parameter S} {x : Any} : Member (param30 (sm schema) p) "name" x ↔ x = .str p.name := by
  simp only [param30, member_object, List.mem_cons, List.not_mem_nil, or_false, exists_eq_or_imp, exists_eq_left, mem_one, mem_may,
    mem_table]
  simp

theorem in_param {p : Parameter S} {x : Any} : Member (param30 (sm schema) p) "in" x ↔ x = .str p.inn := by
  simp only [param30, member_object, List.mem_cons, List.not_mem_nil, or_false, exists_eq_or_imp, exists_eq_left, mem_one, mem_may,
    mem_table]
  simp

theorem distinct_map {Ok : Parameter S → Prop} (ps : List (ParamOrRef S)) (hok : ∀ q ∈ ps, RefOr Ok q.ref q.param)
    (hu : UniqueParams ps) : DistinctParams (ps.map (fun p => refOr (param30 (sm schema)) p.ref p.param)) := by
  constructor
  · intro x hx hr
    obtain ⟨q, hq, rfl⟩ := List.mem_map.mp hx
    rcases refOr_of (f := param30 (sm schema)) (hok q hq) with ⟨r, e⟩ | ⟨p, -, -, e⟩
    · exact absurd ⟨.str r, by rw [e]; simp [member_object, mem_one]⟩ hr
    · simp only [e]
      exact ⟨⟨_, name_param.mpr rfl⟩, ⟨_, in_param.mpr rfl⟩⟩
  · induction ps with
    | nil => exact .nil
    | cons q qs ih =>
      rw [List.map_cons, List.pairwise_cons]
      have hu' : UniqueParams qs := by
        unfold UniqueParams inlineParams at hu ⊢
        rw [List.filterMap_cons] at hu
        split at hu
        · exact hu
        · rw [List.map_cons, List.nodup_cons] at hu
          exact hu.2
      refine ⟨?_, ih (fun x hx => hok x (List.mem_cons_of_mem _ hx)) hu'⟩
      intro y hy n l h1 h2 h3 h4
      obtain ⟨q', hq', rfl⟩ := List.mem_map.mp hy
      rcases refOr_of (f := param30 (sm schema)) (hok q (by simp)) with ⟨r, e⟩ | ⟨p, hp, -, e⟩
      · rw [e] at h1
        exact absurd (member_ref h1) (by decide)
      · rcases refOr_of (f := param30 (sm schema)) (hok q' (List.mem_cons_of_mem _ hq')) with ⟨r, e'⟩ | ⟨p', hp', -, e'⟩
        · rw [e'] at h3
          exact absurd (member_ref h3) (by decide)
        · rw [e] at h1 h2
          rw [e'] at h3 h4
          rw [name_param] at h1 h3
          rw [in_param] at h2 h4
          rw [h1] at h3
          rw [h2] at h4
          injection h3 with h3
          injection h4 with h4
          unfold UniqueParams inlineParams at hu
          rw [List.filterMap_cons, hp, List.map_cons, List.nodup_cons] at hu
          apply hu.1
          rw [List.mem_map]
          exact ⟨p', List.mem_filterMap.mpr ⟨q', hq', hp'⟩, by simp [h3, h4]⟩

/-- The JSON of a document that is in order and tidy. -/
theorem rest_of (hp : Published Sc d) (ht : Tidy d) : Rest (doc30 schema d) := by
  refine ⟨?_, ?_, ?_, ?_, ?_, ?_, ?_, ?_⟩
  · refine ⟨d.openapi, ?_, ?_⟩
    · simp [doc30, member_object, mem_one]
    · rw [ht.openapi]
      exact ⟨'3', [], rfl, by decide, .inl rfl⟩
  · intro o ho
    obtain ⟨k, p, m, op, hk, hm, hop, rfl⟩ := operation_of hp ho
    refine ⟨⟨_, (responses_of hop).mpr rfl⟩, ?_⟩
    intro rs hrs
    rw [responses_of hop] at hrs
    subst hrs
    intro ms hms
    simp only [responses, object] at hms
    injection hms with hms
    rw [← hms]
    rcases (ht.ops _ _ hk _ _ hm).1 with h | h
    · cases hd : op.responses.default with
      | none => exact absurd hd h
      | some r => simp [may, DocJson.entries]
    · have : 0 < op.responses.codes.length := List.length_pos_iff.mpr h
      simp [DocJson.entries]; omega
  · intro o xs ho hm
    obtain ⟨k, p, m, op, hk, hmm, hop, rfl⟩ := operation_of hp ho
    rw [parameters_of hop hm]
    exact distinct_map _ hop.parameters (ht.ops _ _ hk _ _ hmm).2
  · intro p h hb
    obtain ⟨⟨x, hx⟩, -⟩ := hb
    rcases param_of hp h with ⟨r, rfl⟩ | ⟨p, -, rfl⟩
    · exact absurd (member_ref hx) (by decide)
    · exact absurd (member_param hx) (by decide)
  · intro p c h hc
    rcases param_of hp h with ⟨r, rfl⟩ | ⟨p, hok, rfl⟩
    · exact absurd (member_ref hc) (by decide)
    · simp only [param30, member_object, List.mem_cons, List.not_mem_nil, or_false, exists_eq_or_imp, exists_eq_left, mem_table,
        mem_one, mem_may] at hc
      simp at hc
      obtain ⟨hne, rfl⟩ := hc
      rcases hok.value with ⟨s, -, -, e⟩ | ⟨-, mime, mt, e, -⟩
      · exact absurd e hne
      · rw [e]
        constructor <;> intro ms hms <;> injection hms with hms <;> rw [← hms] <;> simp [DocJson.entries]
  · intro p h hc k hk hx
    obtain ⟨c, hc⟩ := hc
    obtain ⟨x, hx⟩ := hx
    rcases param_of hp h with ⟨r, rfl⟩ | ⟨p, hok, rfl⟩
    · exact absurd (member_ref hc) (by decide)
    · simp only [param30, member_object, List.mem_cons, List.not_mem_nil, or_false, exists_eq_or_imp, exists_eq_left, mem_table,
        mem_one, mem_may] at hc
      simp at hc
      obtain ⟨hst, hex⟩ := hok.alone hc.1
      have hk2 := member_param hx
      simp only [List.mem_cons, List.not_mem_nil, or_false] at hk
      rcases hk with rfl | rfl | rfl | rfl | rfl
      · simp only [param30, member_object, List.mem_cons, List.not_mem_nil, or_false, exists_eq_or_imp, exists_eq_left, mem_table,
          mem_one, mem_may, hst] at hx
        simp at hx
      · simp only [param30, member_object, List.mem_cons, List.not_mem_nil, or_false, exists_eq_or_imp, exists_eq_left, mem_table,
          mem_one, mem_may, hex] at hx
        simp at hx
      all_goals exact absurd hk2 (by decide)
  · intro x h hr
    rcases header_of hp h with ⟨r, rfl⟩ | ⟨p, ⟨s, hs, -⟩, rfl⟩
    · exact absurd ⟨.str r, by simp [member_object, mem_one]⟩ hr
    · refine ⟨?_, ⟨schema s, ?_⟩, ?_⟩
      · rintro ⟨⟨y, hy⟩, -⟩
        simp only [header, member_object, List.mem_cons, List.not_mem_nil, or_false, exists_eq_or_imp, exists_eq_left, mem_one,
          mem_may] at hy
        simp at hy
      · simp [header, member_object, mem_one, mem_may, hs]
      · rintro ⟨y, hy⟩
        simp only [header, member_object, List.mem_cons, List.not_mem_nil, or_false, exists_eq_or_imp, exists_eq_left, mem_one,
          mem_may] at hy
        simp at hy
  · intro mt h hb
    obtain ⟨⟨x, hx⟩, -⟩ := hb
    obtain ⟨mt, rfl⟩ := media_of hp h
    simp only [media, member_object, List.mem_cons, List.not_mem_nil, or_false, exists_eq_left, mem_may] at hx
    exact absurd hx.1 (by decide)

end

/-- **C106**: the JSON of a document that was built by calls with input that is in order also satisfies the keywords of the
meta-schema that are left out in C77: it has a version of 3.0; every operation has a response and no two parameters with the
same name and place; parameters, headers and media types have the members that go together; parameters with content have one
media type and nothing that belongs to a schema. -/
theorem C106_rest30 (N : Nums) (lit : F64 → String) (h0 : IntOk N 0) (d : V30.Spec V30.OS)
    (h : Answered V30.ver (Always (JsonOk N lit)) (Always (SchemaOk N lit)) d) :
    ∃ j, encode V30.table (.named "Spec") (docVal (schemaVal lit) d) = some j ∧ Rest j :=
  ⟨_, C85_built30 N lit h0 d (built_answered h),
    rest_of (C83_in_order (converts30 h0) d (built_answered h)) (tidy_answered h)⟩

/-! ## Cases -/

/-- C106, concrete: the example of C83 is built that way. -/
theorem C106_case : Answered V30.ver (Always (JsonOk jsonNums Ex83.lit)) (Always (SchemaOk jsonNums Ex83.lit))
    (Ex83.doc (Ex83.fieldId (Ex83.typed "integer") false "")) := by
  refine .add _ _ _ (.bearer _ _ _ (.reflect _ _ (.title _ .new) Ex83.ok_context ⟨"things/{id}".toList, rfl⟩) ⟨by decide, by decide⟩) ?_
    ⟨"ping".toList, rfl⟩
  exact operationOk_empty

/-- C106, the limit: `SetupOperation` stores an operation without responses. -/
theorem C106_no_response : (V30.Spec.setupOperation (S := V30.OS) {} "GET" "/ping" []).2 = none ∧
    ∃ j, encode V30.table (.named "Spec") (docVal (schemaVal Ex83.lit) (V30.Spec.setupOperation {} "GET" "/ping" []).1) = some j ∧
      ¬ Rest j := by
  refine ⟨by decide +kernel, .obj [("openapi", .str "3.0.3"), ("info", .obj [("title", .str ""), ("version", .str "")]),
    ("paths", .obj [("/ping", .obj [("get", .obj [("responses", .obj [])])])])], by kernel_rfl, ?_⟩
  intro h
  have := (h.responses (.obj [("responses", .obj [])]) ⟨"/ping", "get", by decide, _, _, ⟨_, rfl, by simp; rfl⟩,
    ⟨_, rfl, by simp; rfl⟩, ⟨_, rfl, by simp⟩⟩).2 (.obj []) ⟨_, rfl, by simp⟩ [] rfl
  simp at this

/-- C106, the limit: references to parameters are not compared, so the same one can be given twice. -/
theorem C106_repeated_reference :
    (V30.Spec.addOperation (S := V30.OS) {} "GET" "/ping" { parameters := [{ ref := some "#/p" }, { ref := some "#/p" }] }).2 = none ∧
    ∃ ms, encode V30.table (.named "Spec") (docVal (schemaVal Ex83.lit) (V30.Spec.addOperation {} "GET" "/ping"
        { parameters := [{ ref := some "#/p" }, { ref := some "#/p" }] }).1) =
      some (.obj [("openapi", .str "3.0.3"), ("info", .obj [("title", .str ""), ("version", .str "")]),
        ("paths", .obj [("/ping", .obj [("get", .obj [("parameters",
          .arr [.obj [("$ref", .str "#/p")], .obj [("$ref", .str "#/p")]]), ms])])])]) := by
  refine ⟨by decide +kernel, ("responses", .obj [("204", .obj [("description", .str "No Content")])]), by kernel_rfl⟩

end Verif.Rest30
