import Verif.Spec.DocJson
import Verif.Lemmas.RoundTripUnion
import Verif.Lemmas.Publish30

/-! The JSON that struct values are written as, member by member. -/

namespace Verif.DocJson
open Codec Spec
open Pub30 (fill opt listVal refOrVal nilable)

variable {T : Table} {A : Type}

/-! ## Fields -/

/-- A field is left out, or written as one member. -/
def Writes (T : Table) (f : Field) (v : Val) (g : Members) : Prop :=
  (omitted f v = true ∧ g = []) ∨ (omitted f v = false ∧ ∃ j, encode T f.ty v = some j ∧ g = [(f.key, j)])

/-- The groups of members for the fields that have one. -/
inductive Out (T : Table) (val : String → Val) : List Field → List Members → Prop
  | nil : Out T val [] []
  | skip {f fs gs} (h : omitted f (val f.go) = true) : Out T val fs gs → Out T val (f :: fs) gs
  | take {f fs g gs} (h : Writes T f (val f.go) g) : Out T val fs gs → Out T val (f :: fs) (g :: gs)

theorem Out.fields {val : String → Val} {fields : List Field} {gs : List Members} (h : Out T val fields gs) {fs : List Slot}
    (hs : ∀ f ∈ fields, slotOf fs f.go = some (slotFor T (f.go, val f.go))) :
    encodeFields fields fs = some gs.flatten := by
  induction h with
  | nil => rfl
  | @skip f fields gs h _ ih =>
    simp only [encodeFields, hs f List.mem_cons_self]
    rw [if_pos (by exact h)]
    exact ih (fun g hg => hs g (List.mem_cons_of_mem _ hg))
  | @take f fields g gs h _ ih =>
    simp only [encodeFields, hs f List.mem_cons_self]
    have ih := ih (fun g hg => hs g (List.mem_cons_of_mem _ hg))
    rcases h with ⟨h, rfl⟩ | ⟨h, j, hj, rfl⟩
    · rw [if_pos (by exact h), ih]; rfl
    · rw [if_neg (by simp [slotFor, h]), ih]
      simp [slotFor, hj]

/-! ## Structs -/

/-- The groups of members for the parts that have one. -/
inductive OutParts (T : Table) (s : Codec.Struct) (val : String → Val) : List Codec.Part → List Members → Prop
  | nil : OutParts T s val [] []
  | consts {cs ps gs} : OutParts T s val ps gs →
      OutParts T s val (.consts cs :: ps) (cs.map (fun c => (c.1, c.2.json)) :: gs)
  | fields {ps gs gs'} : Out T val s.fields gs → OutParts T s val ps gs' → OutParts T s val (.fields :: ps) (gs ++ gs')
  | skip {go ty ps gs} (hty : hiddenTy s go = some ty) (hgo : go ∈ s.names) (h : encode T ty (val go) = some .null) :
      OutParts T s val ps gs → OutParts T s val (.hidden go :: ps) gs
  | hidden {go ty ps g gs} (hty : hiddenTy s go = some ty) (hgo : go ∈ s.names)
      (h : ∃ j, encode T ty (val go) = some j ∧ IsPart j ∧ objMembers j = g) :
      OutParts T s val ps gs → OutParts T s val (.hidden go :: ps) (g :: gs)

theorem encode_out {n : String} {s : Codec.Struct} (hn : GoMap.get? T n = some (.struct s)) (hnd : s.names.Nodup)
    {l : List (String × Val)} {gs : List Members}
    (h : OutParts T s (fun go => (GoMap.get? l go).getD .nil) s.parts gs) :
    encode T (.named n) (fill s l) = some (object gs) := by
  unfold fill
  generalize (fun go => (GoMap.get? l go).getD .nil) = val at h
  unfold structOf
  rw [encode_struct hn]
  have key : ∃ js, mapAll (encodePart s ((s.names.map (fun go => (go, val go))).map (slotFor T))) s.parts = some js ∧
      (∀ j ∈ js, IsPart j) ∧ js.flatMap objMembers = gs.flatten := by
    generalize s.parts = ps at h
    induction h with
    | nil => exact ⟨[], rfl, by simp, rfl⟩
    | @consts cs ps gs _ ih =>
      obtain ⟨js, h1, h2, h3⟩ := ih
      refine ⟨.obj (cs.map (fun c => (c.1, c.2.json))) :: js, ?_, ?_, ?_⟩
      · simp only [mapAll, encodePart, h1]
      · intro j hj
        rcases List.mem_cons.1 hj with rfl | hj
        · exact .inr ⟨_, rfl⟩
        · exact h2 j hj
      · rw [List.flatMap_cons, h3]; rfl
    | @fields ps gs gs' ho _ ih =>
      obtain ⟨js, h1, h2, h3⟩ := ih
      refine ⟨.obj gs.flatten :: js, ?_, ?_, ?_⟩
      · simp only [mapAll, encodePart]
        rw [ho.fields (fun f hf => slotOf_structOf hnd (field_name hf)), h1]; rfl
      · intro j hj
        rcases List.mem_cons.1 hj with rfl | hj
        · exact .inr ⟨_, rfl⟩
        · exact h2 j hj
      · rw [List.flatMap_cons, h3, List.flatten_append]; rfl
    | @skip go ty ps gs hty hgo he _ ih =>
      obtain ⟨js, h1, h2, h3⟩ := ih
      refine ⟨.null :: js, ?_, ?_, ?_⟩
      · simp only [mapAll]
        rw [encodePart_hidden hnd hgo hty, he, h1]
      · intro j hj
        rcases List.mem_cons.1 hj with rfl | hj
        · exact .inl rfl
        · exact h2 j hj
      · rw [List.flatMap_cons, h3]; rfl
    | @hidden go ty ps g gs hty hgo he _ ih =>
      obtain ⟨js, h1, h2, h3⟩ := ih
      obtain ⟨j, e1, e2, e3⟩ := he
      refine ⟨j :: js, ?_, ?_, ?_⟩
      · simp only [mapAll]
        rw [encodePart_hidden hnd hgo hty, e1, h1]
      · intro j' hj
        rcases List.mem_cons.1 hj with rfl | hj
        · exact e2
        · exact h2 j' hj
      · rw [List.flatMap_cons, h3, e3]; rfl
  obtain ⟨js, h1, h2, h3⟩ := key
  rw [h1]
  simp only
  rw [unionJ_parts h2, h3]
  rfl

/-! ## Values of fields -/

theorem mapAll_ok {B C : Type} {f : B → Option C} {g : B → C} {l : List B} (h : ∀ x ∈ l, f x = some (g x)) :
    mapAll f l = some (l.map g) := mapAll_some_of h

theorem encode_list {t : Ty} {g : A → Val} {j : A → Any} {l : List A} (h : ∀ a ∈ l, encode T t (g a) = some (j a)) :
    encode T (.slice t) (.list (l.map g)) = some (.arr (l.map j)) := by
  rw [encode_slice, mapAll_map, mapAll_ok h]
  rfl

theorem encode_entries {t : Ty} {g : A → Val} {j : A → Any} {m : GoMap A} (h : ∀ k a, (k, a) ∈ m → encode T t (g a) = some (j a)) :
    encode T (.map t) (.map (m.map (fun p => (p.1, g p.2)))) = some (.obj (entries j m)) := by
  rw [encode_map, mapAll_map, mapAll_ok (g := fun p => (p.1, j p.2))]
  · rfl
  · intro p hp
    simp only [h p.1 p.2 hp, Option.map_some]

theorem omitted_nil {f : Field} (h : nilable f = true) : omitted f .nil = true := by
  unfold nilable at h
  rw [Bool.and_eq_true] at h
  obtain ⟨ho, ht⟩ := h
  unfold omitted
  rw [ho, Bool.true_and]
  split at ht
  · rename_i e; rw [e]
  · rename_i e; rw [e]; rfl
  · rename_i e; rw [e]; rfl
  · cases ht

/-- A field that is always written. -/
theorem writes_one {f : Field} {k : String} {v : Val} {j : Any} (hk : f.key = k) (ho : f.omitempty = false)
    (h : encode T f.ty v = some j) : Writes T f v (one k j) :=
  .inr ⟨by unfold omitted; rw [ho]; rfl, j, h, by rw [hk]; rfl⟩

/-- A pointer that is not nil. -/
theorem writes_ptr {f : Field} {k : String} {v : Val} {j : Any} {t : Ty} (hk : f.key = k) (ht : f.ty = .ptr t) (hv : v ≠ .nil)
    (h : encode T t v = some j) : Writes T f v (one k j) := by
  refine .inr ⟨?_, j, ?_, by rw [hk]; rfl⟩
  · unfold omitted
    rw [ht]
    cases v <;> first | exact absurd rfl hv | simp
  · rw [ht, encode_ptr _ hv, h]

/-- A pointer. -/
theorem writes_may {f : Field} {k : String} {t : Ty} {g : A → Val} {j : A → Any} {o : Option A} (hk : f.key = k)
    (hf : f.omitempty = true) (ht : f.ty = .ptr t) (hv : ∀ a, g a ≠ .nil)
    (h : ∀ a, o = some a → encode T t (g a) = some (j a)) : Writes T f (opt g o) (may k j o) := by
  cases o with
  | none => exact .inl ⟨omitted_nil (by simp [nilable, hf, ht]), rfl⟩
  | some a => exact writes_ptr hk ht (hv a) (h a rfl)

/-- A slice. -/
theorem writes_many {f : Field} {k : String} {t : Ty} {g : A → Val} {j : A → Any} {l : List A} (hk : f.key = k)
    (hf : f.omitempty = true) (ht : f.ty = .slice t) (h : ∀ a ∈ l, encode T t (g a) = some (j a)) :
    Writes T f (listVal g l) (many k j l) := by
  cases l with
  | nil => exact .inl ⟨omitted_nil (by simp [nilable, hf, ht]), rfl⟩
  | cons a l =>
    refine .inr ⟨by simp [omitted, listVal, ht, isEmpty], .arr ((a :: l).map j), ?_, by rw [hk]; rfl⟩
    rw [ht]
    exact encode_list h

/-- A map. -/
theorem writes_table {f : Field} {k : String} {t : Ty} {g : A → Val} {j : A → Any} {m : GoMap A} (hk : f.key = k)
    (hf : f.omitempty = true) (ht : f.ty = .map t) (h : ∀ k a, (k, a) ∈ m → encode T t (g a) = some (j a)) :
    Writes T f (Pub30.mapVal g m) (table k j m) := by
  cases m with
  | nil => exact .inl ⟨omitted_nil (by simp [nilable, hf, ht]), rfl⟩
  | cons a l =>
    refine .inr ⟨by simp [omitted, Pub30.mapVal, ht, isEmpty], .obj (entries j (a :: l)), ?_, by rw [hk]; rfl⟩
    rw [ht]
    exact encode_entries h

/-- A map of patterned keys. -/
theorem part_entries {t : Ty} {g : A → Val} {j : A → Any} {m : GoMap A} (h : ∀ k a, (k, a) ∈ m → encode T t (g a) = some (j a)) :
    ∃ x, encode T (.map t) (Pub30.mapVal g m) = some x ∧ IsPart x ∧ objMembers x = entries j m := by
  cases m with
  | nil => exact ⟨.null, rfl, .inl rfl, rfl⟩
  | cons a l => exact ⟨_, encode_entries h, .inr ⟨_, rfl⟩, rfl⟩

/-! ## Alternatives -/

/-- One alternative is set. -/
theorem encode_alt {n : String} {s : Codec.Struct} (hn : GoMap.get? T n = some (.struct s))
    (hs : s = { oneOf := s.oneOf, parts := s.oneOf.map (fun h => .hidden h.go) })
    (hc : unionCheckTy s = true) {go : String} {t : Ty} {v : Val} (ho : ⟨go, .ptr t⟩ ∈ s.oneOf) {j : Any}
    (hv : v ≠ .nil) (he : encode T t v = some j) (hj : j ≠ .null) : encode T (.named n) (fill s [(go, v)]) = some j := by
  have e : fill s [(go, v)] = .struct (s.oneOf.map (fun h => (h.go, if h.go = go then v else .nil))) := by
    rw [hs]
    simp only [fill, structOf, Codec.Struct.names, List.map_nil, List.nil_append, List.append_nil, List.map_map]
    congr 1
    apply List.map_congr_left
    intro h _
    simp only [Function.comp, GoMap.get?]
    by_cases e : go = h.go
    · simp [e]
    · rw [if_neg e, if_neg (Ne.symm e)]; rfl
  rw [e]
  exact encode_union hn hs hc ho (by rw [encode_ptr _ hv, he]) hj

/-- A reference or a value. -/
theorem encode_refOr {n refN valN : String} {s refS : Codec.Struct} {refGo go : String} {g : A → Val} {jv : A → Any}
    {ref : Option String} {value : Option A} {Ok : A → Prop}
    (hn : GoMap.get? T n = some (.struct s))
    (hs : s = ⟨[], [], false, [], [⟨refGo, .ptr (.named refN)⟩, ⟨go, .ptr (.named valN)⟩], [], none, [], [], [], [], [], [], [],
      none, false, [.hidden refGo, .hidden go]⟩)
    (hg : refGo ≠ go) (hr : ∀ r, encode T (.named refN) (fill refS [("Ref", .str r)]) = some (object [one "$ref" (.str r)]))
    (hv : ∀ a, Ok a → encode T (.named valN) (g a) = some (jv a)) (hnn : ∀ a, Ok a → jv a ≠ .null)
    (hne : ∀ a, g a ≠ .nil) (h : Conform.RefOr Ok ref value) :
    encode T (.named n) (refOrVal s refS refGo go g ref value) = some (refOr jv ref value) := by
  have e : ∀ x y : Val, fill s [(refGo, x), (go, y)] = .struct [(refGo, x), (go, y)] := by
    intro x y
    subst hs
    simp [fill, Spec.structOf, Codec.Struct.names, GoMap.get?, hg]
  have hall : s.oneOf = [⟨refGo, .ptr (.named refN)⟩, ⟨go, .ptr (.named valN)⟩] := by rw [hs]
  have hc : unionCheckTy s = true := by subst hs; simp [unionCheckTy, notPtr, hg]
  have hs' : s = { oneOf := s.oneOf, parts := s.oneOf.map (fun h => .hidden h.go) } := by rw [hs]; rfl
  unfold refOrVal
  rw [e]
  rcases h with ⟨r, rfl, rfl⟩ | ⟨a, rfl, rfl, ha⟩
  · have := encode_union (go := refGo) (t := .named refN) (v := fill refS [("Ref", .str r)]) hn hs' hc (by rw [hall]; simp)
      (j := object [one "$ref" (.str r)]) (by rw [encode_ptr _ (by intro e; cases e), hr]) (by simp [object])
    rw [hall] at this
    simpa [opt, Ne.symm hg, refOr] using this
  · have := encode_union (go := go) (t := .named valN) (v := g a) hn hs' hc (by rw [hall]; simp)
      (j := jv a) (by rw [encode_ptr _ (hne a), hv a ha]) (hnn a ha)
    rw [hall] at this
    simpa [opt, hg, refOr] using this

end Verif.DocJson
