import Verif.Lemmas.Refs31Exact
import Verif.Props.Walk

/-!
# When resolving references panics, OpenAPI 3.1, and walking documents without component schemas (C27, C64)
-/

namespace Verif.V31
open SchemaSpec ValidSpec Dfs

/-- C27 (3.1), for any components: `ToJSONSchema` returns if every component that the schema needs decodes, and
panics otherwise. -/
theorem C27_exact (m : Schemas) (o : Order) (j : JS) (fuel : Nat) (hf : m.decoded.length + 1 ≤ fuel) :
    ((∃ r, toJSONSchema (some m) o fuel (some j) = .ok r) ↔ ∀ n, Needs31 m j n → m.decode n ≠ none) ∧
    (toJSONSchema (some m) o fuel (some j) = .error .panic ↔ ∃ n, Needs31 m j n ∧ m.decode n = none) := by
  obtain ⟨h1, h2⟩ := resolves_exact m o j
  by_cases hb : ∃ n, Needs31 m j n ∧ m.decode n = none
  · have e := h2 hb fuel hf
    obtain ⟨n, hn, hd⟩ := hb
    exact ⟨⟨fun ⟨r, hr⟩ => (nomatch e.symm.trans hr), fun h => absurd hd (h n hn)⟩, ⟨fun _ => ⟨n, hn, hd⟩, fun _ => e⟩⟩
  · have hall : ∀ n, Needs31 m j n → m.decode n ≠ none := fun n hn hd => hb ⟨n, hn, hd⟩
    obtain ⟨r, hr⟩ := h1 hall
    exact ⟨⟨fun _ => hall, fun _ => ⟨r, hr fuel hf⟩⟩,
      ⟨fun h => (nomatch (hr fuel hf).symm.trans h), fun h => absurd h hb⟩⟩

/-- A document without a components map is like one whose map is empty and where no nil map decodes. -/
theorem follow_none (o : Order) : ∀ k, follow none o k = follow (some ⟨[], false⟩) o k
  | 0 => by funext n c; rfl
  | k + 1 => by funext n c; simp only [follow, Schemas.decode, GoMap.get?]; cases c.processed.get? n <;> rfl

theorem toJSONSchema_none (o : Order) (k : Nat) (j : Option JS) :
    toJSONSchema none o k j = toJSONSchema (some ⟨[], false⟩) o k j := by
  cases j <;> simp only [toJSONSchema, follow_none]

/-- C27 (3.1): without component schemas, a schema with local references where `ToJSONSchema` looks makes it
panic; any other is returned as it is. -/
theorem C27_no_components (o : Order) (fuel : Nat) (j : JS) :
    (mainRefs j = [] → toJSONSchema none o (fuel + 1) (some j) = .ok ⟨j, []⟩) ∧
    (mainRefs j ≠ [] → toJSONSchema none o (fuel + 1) (some j) = .error .panic) := by
  rw [toJSONSchema_none]
  obtain ⟨h1, h2⟩ := C27_exact ⟨[], false⟩ o j (fuel + 1) (by simp)
  constructor
  · intro e
    have hno : ∀ n, ¬ Needs31 ⟨[], false⟩ j n := by
      intro n hn
      unfold Needs31 at hn
      induction hn with
      | here h => rw [e] at h; cases h
      | there _ _ ih => exact ih
    obtain ⟨r, hr⟩ := h1.mpr fun n hn => absurd hn (hno n)
    rw [hr]
    obtain ⟨-, h⟩ := C30_only_needed _ o _ j r hr
    obtain ⟨hs, hk⟩ := h (by
      rintro ⟨n, ⟨q, hq, hl⟩, -⟩
      refine hno n (Reach.here ?_)
      cases j with
      | zero => cases hq
      | bool b => cases hq
      | obj flat =>
        unfold mainRefs
        simp only [rootRef] at hq
        simp [hq, hl])
    obtain ⟨rs, rc⟩ := r
    simp only at hs hk
    subst hs
    have : rc = [] := by
      cases rc with
      | nil => rfl
      | cons p rc =>
        obtain ⟨k, v⟩ := p
        exact absurd ((hk k).mp (by simp [GoMap.get?])) (hno k)
    rw [this]
  · intro hne
    obtain ⟨n, hn⟩ := List.exists_mem_of_ne_nil _ hne
    exact h2.mpr ⟨n, Reach.here hn, rfl⟩

/-- C27, concrete: the component `D` does not decode; needed, it makes `ToJSONSchema` panic, and otherwise it does
no harm. -/
example : let m : Schemas := ⟨("D", none) :: exampleSchemas.decoded, true⟩
    (∀ n, Needs31 m (.obj { ref := some "#/components/schemas/A" } none [] [] [] none [] [] none []) n → m.decode n ≠ none) ∧
    Needs31 m (.obj {} none [] [] [] none [] [("d", .obj { ref := some "#/components/schemas/D" } none [] [] [] none [] [] none [])] none []) "D" := by
  intro m
  constructor
  · exact ((C27_exact m .id _ 5 (by decide)).1.mp ⟨_, rfl⟩)
  · exact Reach.here (by decide +kernel)

variable (fromSimpleMap : Option S → Option JS)

/-- The local references, where `ToJSONSchema` looks, of a schema of the document. -/
def refsOf (s : S) : List String := ((fromSimpleMap (some s)).map mainRefs).getD []

/-- C64 in 3.1, whether or not the document has a components map. -/
theorem C64_resolves_any (noComponents : Bool) (h0 : fromSimpleMap none ≠ none) (o : Order) (m : GoMap S)
    (hm : ∀ e ∈ m, fromSimpleMap (some e.2) ≠ none) (s : S) (hs : fromSimpleMap (some s) ≠ none)
    (hn : noComponents = true → m = [] → refsOf fromSimpleMap s = []) :
    ∃ r, resolve fromSimpleMap noComponents o m (some s) = .ok r := by
  cases noComponents with
  | false => exact C64_resolves fromSimpleMap h0 o m hm s hs
  | true =>
    cases m with
    | cons p m => exact C64_resolves fromSimpleMap h0 o (p :: m) hm s hs
    | nil =>
      obtain ⟨j, hj⟩ := Option.ne_none_iff_exists'.mp hs
      have := hn rfl rfl
      simp only [refsOf, hj, Option.map_some, Option.getD_some] at this
      refine ⟨⟨j, []⟩, ?_⟩
      simp only [resolve, hj]
      exact (C27_no_components o 0 j).1 this

theorem resolve_object_any (noComponents : Bool) (o : Order) (m : GoMap S)
    (hm : ∀ e ∈ m, ∃ j, fromSimpleMap (some e.2) = some j ∧ j.IsObject)
    (s : S) (hs : ∃ j, fromSimpleMap (some s) = some j ∧ j.IsObject) (r : Resolved)
    (h : resolve fromSimpleMap noComponents o m (some s) = .ok r) : r.schema.IsObject := by
  cases noComponents with
  | false => exact resolve_object fromSimpleMap o m hm s hs r h
  | true =>
    cases m with
    | cons p m => exact resolve_object fromSimpleMap o (p :: m) hm s hs r h
    | nil =>
      obtain ⟨j, hj, hobj⟩ := hs
      simp only [resolve, hj] at h
      obtain ⟨h1, h2⟩ := C27_no_components o 0 j
      by_cases e : mainRefs j = []
      · have h := (h1 e).symm.trans h
        cases h
        exact hobj
      · exact nomatch (h2 e).symm.trans h

/-- C64 in 3.1, whether or not the document has a components map: if it ends up without component schemas, then the
schemas of the request must not have local references. -/
theorem C64_request31_any (noComponents : Bool) (toSimpleMap : JS → Except String S) (env : Env S) (o : Order)
    (cb : Callback) (schemas : GoMap S) (method : String) (cu : ContentUnit S)
    (hpw : ∃ b, env.processWithoutTags = .ok b) (hc : RequestConverts (ver toSimpleMap) env cu)
    (hcu : cu.customize = none) (h0 : fromSimpleMap none ≠ none)
    (hdec : ∀ s, setupRequest (ver toSimpleMap) env method [cu] ⟨schemas, {}⟩ = (s, .ok) →
      ∀ sc, (∃ n, (n, sc) ∈ s.schemas) ∨ RequestSchema s.op sc → ∃ j, fromSimpleMap (some sc) = some j ∧ j.IsObject)
    (href : noComponents = true → ∀ s, setupRequest (ver toSimpleMap) env method [cu] ⟨schemas, {}⟩ = (s, .ok) →
      s.schemas = [] → ∀ sc, RequestSchema s.op sc → refsOf fromSimpleMap sc = []) :
    (walkRequest (ver toSimpleMap) env (resolve fromSimpleMap noComponents o) o cb schemas method cu).out ≠ .panic := by
  have some_ne : ∀ {sc}, (∃ j, fromSimpleMap (some sc) = some j ∧ j.IsObject) → fromSimpleMap (some sc) ≠ none := by
    rintro sc ⟨j, h, -⟩; rw [h]; nofun
  refine C64_request_no_panic _ env _ o cb schemas method cu hpw hc hcu (fun s sc h hsc => ?_) ?_
  · exact C64_resolves_any fromSimpleMap noComponents h0 o s.schemas (fun e he => some_ne (hdec s h e.2 (.inl ⟨e.1, he⟩))) sc
      (some_ne (hdec s h sc (.inr hsc))) (fun hn he => href hn s h he sc hsc)
  · intro s rb b mt r h hrb hb hmt hr
    obtain ⟨sc, hsc⟩ := Option.ne_none_iff_exists'.mp (request_content_schemas hcu h rb b hrb hb _ hmt)
    simp only at hsc
    rw [hsc] at hr
    exact resolve_object_any fromSimpleMap noComponents o s.schemas (fun e he => hdec s h e.2 (.inl ⟨e.1, he⟩)) sc
      (hdec s h sc (.inr (.body hrb hb hmt hsc))) r hr

/-- C64 in 3.1: the same for responses that are neither the default one nor customised. -/
theorem C64_response31_any (noComponents : Bool) (toSimpleMap : JS → Except String S) (env : Env S) (o : Order)
    (cb : Callback) (schemas : GoMap S) (cu : ContentUnit S) (hc : ResponseConverts (ver toSimpleMap) cu)
    (hcu : cu.customize = none) (hd : cu.isDefault = false) (h0 : fromSimpleMap none ≠ none)
    (hdec : ∀ s e resp, setupResponse (ver toSimpleMap) env "GET" [cu] ⟨schemas, {}⟩ = (s, .ok) →
      responseIn s.op (placeOf cu) = some e → e.response = some resp →
      ∀ sc, (∃ n, (n, sc) ∈ s.schemas) ∨ ResponseSchema resp sc → fromSimpleMap (some sc) ≠ none)
    (href : noComponents = true → ∀ s e resp, setupResponse (ver toSimpleMap) env "GET" [cu] ⟨schemas, {}⟩ = (s, .ok) →
      responseIn s.op (placeOf cu) = some e → e.response = some resp → s.schemas = [] →
      ∀ sc, ResponseSchema resp sc → refsOf fromSimpleMap sc = []) :
    (walkResponse (ver toSimpleMap) env (resolve fromSimpleMap noComponents o) o cb schemas cu).out ≠ .panic :=
  C64_response_no_panic _ env _ o cb schemas cu hc hcu hd fun s e resp sc h he hr hsc =>
    C64_resolves_any fromSimpleMap noComponents h0 o s.schemas (fun x hx => hdec s e resp h he hr x.2 (.inl ⟨x.1, hx⟩)) sc
      (hdec s e resp h he hr sc (.inr hsc)) (fun hn hm => href hn s e resp h he hr hm sc hsc)

end Verif.V31

namespace Verif.V30
open SchemaSpec

/-- C64 in 3.0, whether or not the document has a components map. -/
theorem C64_resolves_any (noComponents : Bool) (o : Order) (m : GoMap OS) (s : OS)
    (hn : noComponents = true → m = [] → jsRefs (conv s) = []) : ∃ r, resolve noComponents o m (some s) = .ok r := by
  cases noComponents with
  | false => exact C64_resolves o m s
  | true =>
    cases m with
    | cons p m => exact C64_resolves o (p :: m) s
    | nil => exact ⟨_, (C27_no_components o 0 s).1 (hn rfl rfl)⟩

theorem resolve_object_any (noComponents : Bool) (o : Order) (m : GoMap OS) (s : Option OS) (r : Resolved)
    (h : resolve noComponents o m s = .ok r) : r.schema.IsObject := by
  cases noComponents with
  | false => exact resolve_object o m s r h
  | true =>
    cases m with
    | cons p m => exact resolve_object o (p :: m) s r h
    | nil =>
      cases s with
      | none => cases h
      | some s =>
        obtain ⟨h1, h2⟩ := C27_no_components o 0 s
        by_cases e : jsRefs (conv s) = []
        · have h := (h1 e).symm.trans h
          cases h
          cases s <;> exact ⟨_, _, _, _, _, _, _, _, _, _, rfl⟩
        · exact nomatch (h2 e).symm.trans h

/-- C64 in 3.0, whether or not the document has a components map: if it ends up without component schemas, then the
schemas of the request must not have local references. -/
theorem C64_request30_any (noComponents : Bool) (env : Env OS) (o : Order) (cb : Callback) (schemas : GoMap OS)
    (method : String) (cu : ContentUnit OS) (hpw : ∃ b, env.processWithoutTags = .ok b)
    (hc : RequestConverts ver env cu) (hcu : cu.customize = none)
    (href : noComponents = true → ∀ s, setupRequest ver env method [cu] ⟨schemas, {}⟩ = (s, .ok) →
      s.schemas = [] → ∀ sc, RequestSchema s.op sc → jsRefs (conv sc) = []) :
    (walkRequest ver env (resolve noComponents o) o cb schemas method cu).out ≠ .panic :=
  C64_request_no_panic ver env _ o cb schemas method cu hpw hc hcu
    (fun s sc h hsc => C64_resolves_any noComponents o s.schemas sc fun hn he => href hn s h he sc hsc)
    (fun s _ _ mt r _ _ _ _ h => resolve_object_any noComponents o s.schemas mt.schema r h)

/-- C64 in 3.0: the same for responses that are neither the default one nor customised. -/
theorem C64_response30_any (noComponents : Bool) (env : Env OS) (o : Order) (cb : Callback) (schemas : GoMap OS)
    (cu : ContentUnit OS) (hc : ResponseConverts ver cu) (hcu : cu.customize = none) (hd : cu.isDefault = false)
    (href : noComponents = true → ∀ s e resp, setupResponse ver env "GET" [cu] ⟨schemas, {}⟩ = (s, .ok) →
      responseIn s.op (placeOf cu) = some e → e.response = some resp → s.schemas = [] →
      ∀ sc, ResponseSchema resp sc → jsRefs (conv sc) = []) :
    (walkResponse ver env (resolve noComponents o) o cb schemas cu).out ≠ .panic :=
  C64_response_no_panic ver env _ o cb schemas cu hc hcu hd fun s e resp sc h he hr hsc =>
    C64_resolves_any noComponents o s.schemas sc fun hn hm => href hn s e resp h he hr hm sc hsc

end Verif.V30
