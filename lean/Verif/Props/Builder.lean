import Verif.Lemmas.BuilderJson
import Verif.Codec.Builders30
import Verif.Codec.Builders31
import Verif.Codec.Table30
import Verif.Codec.Table31
import Verif.Codec.KernelRfl

/-!
# C87: builder methods do what their names say

The generated methods `WithF`, `WithFItem` and `FEns` of the entities of both versions.
-/

namespace Verif
open Codec Spec Build

/-- The types and the builder methods of one of the two versions. -/
def Entities (T : Table) (B : GoMap (List Builder)) : Prop :=
  (T = V30.table ∧ B = V30.builders) ∨ (T = V31.table ∧ B = V31.builders)

theorem fine30 : FineAll V30.table V30.builders := fineAll_of (by decide +kernel)
theorem fine31 : FineAll V31.table V31.builders := fineAll_of (by decide +kernel)
theorem fresh_of30 : FreshOk V30.table := Build.fresh_of fine30 (by decide +kernel)
theorem fresh_of31 : FreshOk V31.table := Build.fresh_of fine31 (by decide +kernel)

/-- All types but `SchemaAdditionalProperties`, which may be written as `true` or `false`. -/
def objects (T : Table) : Bool :=
  T.all (fun p => match p.2 with
    | .struct s => partsOk s && (p.1 == "SchemaAdditionalProperties" || objTy T 12 (.named p.1))
    | _ => true)

theorem objects30 : objects V30.table = true := by decide +kernel
theorem objects31 : objects V31.table = true := by decide +kernel

variable {T : Table} {B : GoMap (List Builder)}

theorem Entities.fine (h : Entities T B) : FineAll T B := by
  rcases h with ⟨rfl, rfl⟩ | ⟨rfl, rfl⟩
  · exact fine30
  · exact fine31

theorem Entities.fresh (h : Entities T B) : FreshOk T := by
  rcases h with ⟨rfl, rfl⟩ | ⟨rfl, rfl⟩
  · exact fresh_of30
  · exact fresh_of31

theorem Entities.object (h : Entities T B) {n : String} {s : Struct} (hn : GoMap.get? T n = some (.struct s)) :
    PartsOk s ∧ (n ≠ "SchemaAdditionalProperties" → objTy T 12 (.named n) = true) := by
  have hT : objects T = true := by
    rcases h with ⟨rfl, rfl⟩ | ⟨rfl, rfl⟩
    · exact objects30
    · exact objects31
  have := List.all_eq_true.mp hT _ (get?_mem hn)
  simp only [Bool.and_eq_true, Bool.or_eq_true, beq_iff_eq] at this
  exact ⟨partsOk_of this.1, fun hne => this.2.resolve_left hne⟩

/-- Every field of every entity has its methods, and there are no others: `WithF`, for maps `WithFItem`, for
pointers to structs `FEns`, each with the argument type of the field. -/
theorem C87_methods (h : Entities T B) {n : String} {s : Struct} (hn : GoMap.get? T n = some (.struct s)) (b : Builder) :
    b ∈ (GoMap.get? B n).getD [] ↔ ∃ f ∈ s.members, b ∈ methodsOf T n f := by
  have hf := h.fine.fine n s hn
  exact ⟨hf.only b, fun ⟨f, hm, hb⟩ => hf.all f hm b hb⟩

/-- A call changes the field the method is named after as it should, and no other field; the result is again a
value of the type. -/
theorem C87_call (h : Entities T B) {n : String} {v : Val} (hv : Of T (.named n) v) {c : Call} (hc : CallOk T B n c) :
    Of T (.named n) (c.run T v) ∧ Leaves T c (v.field c.m.field) ((c.run T v).field c.m.field) ∧
      ∀ g, g ≠ c.m.field → (c.run T v).field g = v.field g := by
  obtain ⟨bs, hbs, _⟩ := hc.1
  obtain ⟨s, hs⟩ := h.fine.owner n bs hbs
  obtain ⟨val, rfl, hval⟩ := of_struct_inv hs hv
  obtain ⟨hin, hrun, hof⟩ := run_structOf h.fine h.fresh hs hc hval
  rw [hrun]
  refine ⟨.struct hs _ hof, ?_, fun g hg => ?_⟩
  · rw [field_structOf hin, field_structOf hin]
    simp only [upd, if_pos]
    exact leaves_effect _ _
  · by_cases hgs : g ∈ s.names
    · rw [field_structOf hgs, field_structOf hgs]; simp [upd, hg]
    · simp only [structOf, Val.field, get?_map_out hgs]

/-- The fields after any number of calls. -/
theorem calls_field (h : Entities T B) {n : String} {v : Val} (hv : Of T (.named n) v) {cs : List Call}
    (hcs : ∀ c ∈ cs, CallOk T B n c) :
    Of T (.named n) (runCalls T cs v) ∧ ∀ go, (∃ c ∈ cs, c.m.field = go) →
      (runCalls T cs v).field go = effects T go cs (v.field go) := by
  cases cs with
  | nil => exact ⟨hv, fun _ ⟨_, h, _⟩ => by cases h⟩
  | cons c cs =>
    obtain ⟨⟨bs, hbs, _⟩, _⟩ := hcs c List.mem_cons_self
    obtain ⟨s, hs⟩ := h.fine.owner n bs hbs
    obtain ⟨val, rfl, hval⟩ := of_struct_inv hs hv
    obtain ⟨h1, h2⟩ := runCalls_structOf h.fine h.fresh hs hcs hval
    rw [h1]
    refine ⟨.struct hs _ h2, fun go ⟨d, hd, hgo⟩ => ?_⟩
    have hin := (run_structOf h.fine h.fresh hs (hcs d hd) hval).1
    rw [hgo] at hin
    rw [field_structOf hin, field_structOf hin]

/-- The last `WithF` decides: after any calls, then `WithF(w)`, then any calls for other fields, the field is `w`. -/
theorem C87_last (h : Entities T B) {n : String} {v : Val} (hv : Of T (.named n) v) {before after : List Call} {c : Call}
    (hcs : ∀ d ∈ before ++ c :: after, CallOk T B n d) (hk : c.m.kind = .set ∨ c.m.kind = .setPtr)
    (ha : ∀ d ∈ after, d.m.field ≠ c.m.field) :
    (runCalls T (before ++ c :: after) v).field c.m.field = c.val := by
  rw [(calls_field h hv hcs).2 _ ⟨c, by simp, rfl⟩, show before ++ c :: after = before ++ ([c] ++ after) from rfl,
    effects_append, effects_append, effects_none ha]
  simp only [effects, List.foldl_cons, List.foldl_nil, if_pos, effect]
  rcases hk with hk | hk <;> rw [hk]

/-- An entry stays until it or the whole map is replaced: after any calls, then `WithFItem(k, w)`, then any calls that
are for other fields or add entries for other keys, the map has `w` for `k`. -/
theorem C87_entry (h : Entities T B) {n : String} {v : Val} (hv : Of T (.named n) v) {before after : List Call} {c : Call}
    (hcs : ∀ d ∈ before ++ c :: after, CallOk T B n d) (hk : c.m.kind = .item)
    (ha : ∀ d ∈ after, d.m.field = c.m.field → d.m.kind = .item ∧ d.key ≠ c.key) :
    ∃ es, (runCalls T (before ++ c :: after) v).field c.m.field = .map es ∧ GoMap.get? es c.key = some c.val := by
  rw [(calls_field h hv hcs).2 _ ⟨c, by simp, rfl⟩, show before ++ c :: after = before ++ ([c] ++ after) from rfl,
    effects_append, effects_append]
  refine effects_entry ha ⟨GoMap.set (effects T c.m.field before (v.field c.m.field)).items c.key c.val, ?_,
    GoMap.get?_set_self _ _ _⟩
  simp only [effects, List.foldl_cons, List.foldl_nil, if_pos, effect, hk]

/-- The order of calls for different fields does not matter: two sequences of calls with the same calls, in the
same order, for each field leave the same value. -/
theorem C87_order (h : Entities T B) {n : String} {v : Val} (hv : Of T (.named n) v) {cs ds : List Call}
    (hcs : ∀ c ∈ cs, CallOk T B n c) (hds : ∀ c ∈ ds, CallOk T B n c)
    (hsame : ∀ go, cs.filter (fun c => c.m.field = go) = ds.filter (fun c => c.m.field = go)) :
    runCalls T cs v = runCalls T ds v := by
  cases cs with
  | nil =>
    cases ds with
    | nil => rfl
    | cons d ds => have := hsame d.m.field; simp at this
  | cons c cs =>
    obtain ⟨⟨bs, hbs, _⟩, _⟩ := hcs c List.mem_cons_self
    obtain ⟨s, hs⟩ := h.fine.owner n bs hbs
    obtain ⟨val, rfl, hval⟩ := of_struct_inv hs hv
    rw [(runCalls_structOf h.fine h.fresh hs hcs hval).1, (runCalls_structOf h.fine h.fresh hs hds hval).1]
    refine structOf_ext (fun go _ => ?_)
    rw [effects_filter, effects_filter, hsame]

/-- `x.AEns().BEns()` followed by calls edits `x.A.B`, which is new if it was nil. All other fields on the way are
as before, or as in a new struct if there was none. -/
theorem C87_inside (h : Entities T B) {n m : String} {path : List Builder} (hp : Leads B n path m) {v : Val}
    (hv : Of T (.named n) v) {cs : List Call} (hcs : ∀ c ∈ cs, CallOk T B m c) :
    Of T (.named n) (runInside T path (runCalls T cs) v) ∧
      (fieldAt v (path.map Builder.field) ≠ .nil →
        fieldAt (runInside T path (runCalls T cs) v) (path.map Builder.field) =
          runCalls T cs (fieldAt v (path.map Builder.field))) ∧
      (fieldAt v (path.map Builder.field) = .nil →
        fieldAt (runInside T path (runCalls T cs) v) (path.map Builder.field) = runCalls T cs (fresh T (.named m))) ∧
      ∀ p b q, path = p ++ b :: q → ∀ g, g ≠ b.field →
        (fieldAt v (p.map Builder.field) ≠ .nil → fieldAt (runInside T path (runCalls T cs) v)
          (p.map Builder.field ++ [g]) = fieldAt v (p.map Builder.field ++ [g])) ∧
        (fieldAt v (p.map Builder.field) = .nil → fieldAt (runInside T path (runCalls T cs) v)
          (p.map Builder.field ++ [g]) = (fresh T (.named b.recv)).field g) := by
  obtain ⟨h1, h2, h3⟩ := runInside_of h.fine h.fresh hp (f := runCalls T cs) (fun v hv => (calls_field h hv hcs).1) hv
  refine ⟨h1, fun hne => ?_, fun hnil => ?_, h3⟩
  · rw [h2]
    split
    · rename_i e; exact absurd e hne
    · rfl
  · rw [h2, hnil]

/-- In the JSON, a call replaces the members of its field and keeps all others, before and after them. After `WithF` or
`WithFItem` with a value that can be written, the struct can be written again. -/
theorem C87_json (h : Entities T B) {n : String} {s : Struct} (hn : GoMap.get? T n = some (.struct s))
    (hs : n ≠ "SchemaAdditionalProperties") {v : Val} (hv : Of T (.named n) v) {c : Call} (hc : CallOk T B n c) {j : Any}
    (hj : encode T (.named n) v = some j) :
    ∃ pre post old, Shows T s c.m.field (v.field c.m.field) old ∧ j = .obj (pre ++ old ++ post) ∧
      (∀ new, Shows T s c.m.field ((c.run T v).field c.m.field) new →
        encode T (.named n) (c.run T v) = some (.obj (pre ++ new ++ post))) ∧
      (c.m.kind ≠ .ens → ∀ jv, encode T c.m.arg c.val = some jv →
        ∃ new, Shows T s c.m.field ((c.run T v).field c.m.field) new) :=
  call_json h.fine h.fresh hn (h.object hn).1 ((h.object hn).2 hs) hc hv hj

/-- `PathItem.WithOperation` of 3.0 sets the operation for the lower-cased method and keeps the others. -/
theorem C87_operation {v op : Val} (hv : Of V30.table (.named "PathItem") v) (hop : Of V30.table (.named "Operation") op)
    (method : String) :
    Of V30.table (.named "PathItem") (V30.withOperation V30.table method op v) ∧
    (∃ es, (V30.withOperation V30.table method op v).field "MapOfOperationValues" = .map es ∧
      ∀ k, GoMap.get? es k = if k = goToLower method then some op
        else GoMap.get? (v.field "MapOfOperationValues").items k) ∧
    ∀ g, g ≠ "MapOfOperationValues" → (V30.withOperation V30.table method op v).field g = v.field g := by
  have hc : CallOk V30.table V30.builders "PathItem"
      ⟨⟨"PathItem", "WithMapOfOperationValuesItem", .item, "MapOfOperationValues", .named "Operation"⟩,
        goToLower method, op⟩ :=
    have hb : (⟨"PathItem", "WithMapOfOperationValuesItem", .item, "MapOfOperationValues", .named "Operation"⟩ : Builder) ∈
      V30.bPathItem := by decide +kernel
    ⟨⟨V30.bPathItem, (by kernel_rfl), hb⟩, fun _ => hop⟩
  obtain ⟨h1, h2, h3⟩ := C87_call (.inl ⟨rfl, rfl⟩) hv hc
  refine ⟨h1, ?_, h3⟩
  unfold V30.withOperation
  generalize hr : ((Call.mk _ _ _).run V30.table v).field "MapOfOperationValues" = r at h2 ⊢
  have h2' : Leaves V30.table _ (v.field "MapOfOperationValues") r := h2
  generalize v.field "MapOfOperationValues" = old at h2' ⊢
  cases h2' with
  | set hk => rcases hk with hk | hk <;> cases hk
  | item hk hnew => exact ⟨_, rfl, hnew⟩
  | keep hk => cases hk
  | make hk => cases hk

/-! ## A concrete case -/

/-- `(&openapi3.Info{}).WithTitle("Pets").WithVersion("v1")`. -/
def builtInfo : Val := runCalls V30.table
  [⟨⟨"Info", "WithTitle", .set, "Title", .str⟩, "", .str "Pets"⟩,
   ⟨⟨"Info", "WithVersion", .set, "Version", .str⟩, "", .str "v1"⟩] (fresh V30.table (.named "Info"))

/-- Calls on a `Spec`. -/
def builtCalls : List Call := [
  ⟨⟨"Spec", "WithOpenapi", .set, "Openapi", .str⟩, "", .str "3.0.0"⟩,
  ⟨⟨"Spec", "WithInfo", .set, "Info", .named "Info"⟩, "", builtInfo⟩,
  ⟨⟨"Spec", "WithMapOfAnythingItem", .item, "MapOfAnything", .any⟩, "x-a", .any (.bool true)⟩,
  ⟨⟨"Spec", "WithOpenapi", .set, "Openapi", .str⟩, "", .str "3.0.3"⟩,
  ⟨⟨"Spec", "WithMapOfAnythingItem", .item, "MapOfAnything", .any⟩, "x-b", .any (.bool false)⟩]

/-- `ComponentsEns().SchemasEns()`. -/
def builtPath : List Builder := [⟨"Spec", "ComponentsEns", .ens, "Components", .named "Components"⟩,
  ⟨"Components", "SchemasEns", .ens, "Schemas", .named "ComponentsSchemas"⟩]

/-- `WithRef("#/x")`. -/
def builtRef : Call := ⟨⟨"SchemaReference", "WithRef", .set, "Ref", .str⟩, "", .str "#/x"⟩

/-- `WithSchemaReference(*(&openapi3.SchemaReference{}).WithRef("#/x"))`. -/
def builtAlt : Call := ⟨⟨"SchemaOrRef", "WithSchemaReference", .setPtr, "SchemaReference", .named "SchemaReference"⟩, "",
  builtRef.run V30.table (fresh V30.table (.named "SchemaReference"))⟩

/-- A call on what `SchemasEns()` returns. -/
def builtItem : Call := ⟨⟨"ComponentsSchemas", "WithMapOfSchemaOrRefValuesItem", .item, "MapOfSchemaOrRefValues",
  .named "SchemaOrRef"⟩, "Pet", builtAlt.run V30.table (fresh V30.table (.named "SchemaOrRef"))⟩

theorem ok30 {n : String} {bs : List Builder} {c : Call} (hn : GoMap.get? V30.builders n = some bs) (hb : c.m ∈ bs)
    (hv : Of V30.table c.m.arg c.val) : CallOk V30.table V30.builders n c := ⟨⟨bs, hn, hb⟩, fun _ => hv⟩

/-- The calls of the case are calls of methods with values of the right types. -/
theorem C87_case_ok : Of V30.table (.named "Spec") (fresh V30.table (.named "Spec")) ∧
    (∀ c ∈ builtCalls, CallOk V30.table V30.builders "Spec" c) ∧
    Leads V30.builders "Spec" builtPath "ComponentsSchemas" ∧
    CallOk V30.table V30.builders "ComponentsSchemas" builtItem := by
  have E : Entities V30.table V30.builders := .inl ⟨rfl, rfl⟩
  have info : Of V30.table (.named "Info") builtInfo := by
    refine (calls_field E (fresh_of30 "Info" V30.sInfo (by kernel_rfl)) (fun c hc => ?_)).1
    simp only [List.mem_cons, List.not_mem_nil, or_false] at hc
    rcases hc with rfl | rfl
    · exact ok30 (bs := V30.bInfo) (by kernel_rfl) (by decide +kernel) (.str _)
    · exact ok30 (bs := V30.bInfo) (by kernel_rfl) (by decide +kernel) (.str _)
  refine ⟨fresh_of30 "Spec" V30.sSpec (by kernel_rfl), ?_, ?_, ?_⟩
  · intro c hc
    simp only [builtCalls, List.mem_cons, List.not_mem_nil, or_false] at hc
    rcases hc with rfl | rfl | rfl | rfl | rfl
    · exact ok30 (bs := V30.bSpec) (by kernel_rfl) (by decide +kernel) (.str _)
    · refine ok30 (bs := V30.bSpec) (by kernel_rfl) ?_ info
      show (⟨"Spec", "WithInfo", .set, "Info", .named "Info"⟩ : Builder) ∈ V30.bSpec
      decide +kernel
    · exact ok30 (bs := V30.bSpec) (by kernel_rfl) (by decide +kernel) (.any _)
    · exact ok30 (bs := V30.bSpec) (by kernel_rfl) (by decide +kernel) (.str _)
    · exact ok30 (bs := V30.bSpec) (by kernel_rfl) (by decide +kernel) (.any _)
  · exact .into (bs := V30.bSpec) (by kernel_rfl) (by decide +kernel) rfl rfl
      (.into (bs := V30.bComponents) (by kernel_rfl) (by decide +kernel) rfl rfl (.here _))
  · refine ok30 (bs := V30.bComponentsSchemas) (by kernel_rfl) (by decide +kernel) ?_
    have r : Of V30.table (.named "SchemaReference") builtAlt.val :=
      (C87_call E (fresh_of30 "SchemaReference" V30.sSchemaReference (by kernel_rfl))
        (ok30 (c := builtRef) (bs := V30.bSchemaReference) (by kernel_rfl) (by decide +kernel) (.str _))).1
    exact (C87_call E (fresh_of30 "SchemaOrRef" V30.sSchemaOrRef (by kernel_rfl))
      (ok30 (c := builtAlt) (bs := V30.bSchemaOrRef) (by kernel_rfl) (by decide +kernel) r)).1

/-- The document of the case. -/
theorem C87_case : encode V30.table (.named "Spec") (runInside V30.table builtPath (runCalls V30.table [builtItem])
      (runCalls V30.table builtCalls (fresh V30.table (.named "Spec")))) =
    some (.obj [("openapi", .str "3.0.3"),
      ("info", .obj [("title", .str "Pets"), ("version", .str "v1")]), ("paths", .obj []),
      ("components", .obj [("schemas", .obj [("Pet", .obj [("$ref", .str "#/x")])])]),
      ("x-a", .bool true), ("x-b", .bool false)]) := by kernel_rfl

end Verif
