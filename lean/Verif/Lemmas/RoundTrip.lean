import Verif.Spec.RoundTrip
import Verif.Props.Codec

/-! Lemmas for writing values and reading them back. -/

namespace Verif
open Codec Spec

variable {T : Table} {N : Nums}

/-! ## What is written -/

/-- The JSON a value is written as. -/
def enc (T : Table) (ty : Ty) (v : Val) : Any := (encode T ty v).getD .null

/-- What is read back. -/
def rt (T : Table) (N : Nums) (ty : Ty) (v : Val) : Val := ((encode T ty v).bind (decode T N ty)).getD .nil

theorem enc_of {ty : Ty} {v : Val} {j : Any} (h : encode T ty v = some j) : enc T ty v = j := by simp [enc, h]

theorem enc_some {ty : Ty} {v : Val} (h : ∃ j, encode T ty v = some j) : encode T ty v = some (enc T ty v) := by
  obtain ⟨j, h⟩ := h
  rw [enc_of h, h]

/-- The entries of a map. -/
def entries : Val → List (String × Val)
  | .map es => es
  | _ => []

theorem keysOf_entries (v : Val) : keysOf v = (entries v).map Prod.fst := by
  cases v <;> rfl

def constMembers (s : Struct) : List (String × Any) := s.consts.map (fun c => (c.1, c.2.json))

def fieldMembers (T : Table) (s : Struct) (val : String → Val) : List (String × Any) :=
  (s.fields.filter (fun f => !omitted f (val f.go))).map (fun f => (f.key, enc T f.ty (val f.go)))

def mapMembers (T : Table) (ty : Ty) (v : Val) : List (String × Any) :=
  (entries v).map (fun p => (p.1, enc T ty p.2))

def patMembers (T : Table) (s : Struct) (val : String → Val) : List (String × Any) :=
  s.patterns.flatMap (fun q => mapMembers T q.ty (val q.go))

def addMembers (T : Table) (s : Struct) (val : String → Val) : List (String × Any) :=
  match s.additional with
  | some a => mapMembers T a.ty (val a.go)
  | none => []

theorem encodeFields_eq {fields : List Field} {fs : List Slot} {val : String → Val}
    (hs : ∀ f ∈ fields, slotOf fs f.go = some (slotFor T (f.go, val f.go)))
    (he : ∀ f ∈ fields, ∃ j, encode T f.ty (val f.go) = some j) :
    encodeFields fields fs = some ((fields.filter (fun f => !omitted f (val f.go))).map
      (fun f => (f.key, enc T f.ty (val f.go)))) := by
  induction fields with
  | nil => rfl
  | cons f fields ih =>
    simp only [encodeFields, hs f List.mem_cons_self]
    have ih := ih (fun g hg => hs g (List.mem_cons_of_mem _ hg)) (fun g hg => he g (List.mem_cons_of_mem _ hg))
    rw [ih]
    have e := enc_some (he f List.mem_cons_self)
    cases ho : omitted f (val f.go) with
    | true => simp [slotFor, ho]
    | false => simp [slotFor, ho, e]

theorem flatMap_congr' {α β : Type} {l : List α} {f g : α → List β} (h : ∀ x ∈ l, f x = g x) :
    l.flatMap f = l.flatMap g := by
  induction l with
  | nil => rfl
  | cons x l ih =>
    rw [List.flatMap_cons, List.flatMap_cons, h x List.mem_cons_self, ih (fun y hy => h y (List.mem_cons_of_mem _ hy))]

/-- `null` or an object. -/
def IsPart (j : Any) : Prop := j = .null ∨ ∃ ms, j = .obj ms

def objMembers : Any → List (String × Any)
  | .obj ms => ms
  | _ => []

theorem unionJ_parts {js : List Any} (h : ∀ j ∈ js, IsPart j) : unionJ js = some (.obj (js.flatMap objMembers)) := by
  unfold unionJ
  have e : js.flatMap objMembers = (js.filter (fun j => match j with
    | .null => false
    | .obj [] => false
    | _ => true)).flatMap objMembers := by
    clear h
    induction js with
    | nil => rfl
    | cons j js ih =>
      rw [List.flatMap_cons, List.filter_cons]
      split
      · rw [if_neg (by decide)]; exact ih
      · rw [if_neg (by decide)]; exact ih
      · rw [if_pos rfl, List.flatMap_cons, ih]
  have ho : ∀ j ∈ js.filter (fun j => match j with
    | .null => false
    | .obj [] => false
    | _ => true), ∃ ms, j = .obj ms := by
    intro j hj
    obtain ⟨h1, h2⟩ := List.mem_filter.1 hj
    rcases h j h1 with rfl | h
    · cases h2
    · exact h
  rw [e]
  generalize js.filter (fun j => match j with
    | .null => false
    | .obj [] => false
    | _ => true) = parts at ho
  have gen : (mapAll (fun j => match j with
      | .obj ms => some ms
      | _ => none) parts).map (fun l => Any.obj l.flatten) = some (.obj (parts.flatMap objMembers)) := by
    rw [mapAll_some_of (g := objMembers)]
    · simp [List.flatMap]
    · intro j hj
      obtain ⟨ms, rfl⟩ := ho j hj
      rfl
  match parts, ho, gen with
  | [], _, _ => rfl
  | [j], ho, _ =>
    obtain ⟨ms, rfl⟩ := ho j List.mem_cons_self
    simp [objMembers]
  | _ :: _ :: _, _, gen => exact gen

/-- A map whose entries can be written. -/
def MapOk (T : Table) (ty : Ty) (v : Val) : Prop :=
  v = .nil ∨ ∃ es, v = .map es ∧ ∀ p ∈ es, ∃ j, encode T ty p.2 = some j

theorem encode_mapOk {ty : Ty} {v : Val} (h : MapOk T ty v) :
    ∃ j, encode T (.map ty) v = some j ∧ IsPart j ∧ objMembers j = mapMembers T ty v := by
  rcases h with rfl | ⟨es, rfl, h⟩
  · exact ⟨.null, rfl, .inl rfl, rfl⟩
  · refine ⟨.obj (mapMembers T ty (.map es)), ?_, .inr ⟨_, rfl⟩, rfl⟩
    rw [encode_map, mapAll_some_of (g := fun p => (p.1, enc T ty p.2))]
    · rfl
    · intro p hp
      rw [enc_some (h p hp)]
      rfl

/-- The parts of a struct without alternatives. -/
def canonParts (s : Struct) : List Part :=
  (if s.consts = [] then [] else [.consts s.consts]) ++ (if s.fields = [] then [] else [.fields]) ++
    s.patterns.map (fun q => .hidden q.go) ++
    (match s.additional with
      | some a => [.hidden a.go]
      | none => [])

theorem slotOf_structOf {names : List String} (hnd : names.Nodup) {val : String → Val} {go : String}
    (h : go ∈ names) :
    slotOf ((names.map (fun go => (go, val go))).map (slotFor T)) go = some (slotFor T (go, val go)) := by
  apply slotOf_get
  · simpa [Function.comp_def] using hnd
  · exact List.mem_map.2 ⟨go, h, rfl⟩

theorem field_name {s : Struct} {f : Field} (h : f ∈ s.fields) : f.go ∈ s.names := by
  unfold Struct.names
  simp only [List.append_assoc]
  exact List.mem_append_left _ (List.mem_map_of_mem h)

theorem embed_name {s : Struct} {e : Hidden} (h : e ∈ s.embeds) : e.go ∈ s.names := by
  unfold Struct.names
  simp only [List.mem_append]
  exact .inl (.inl (.inl (.inr (List.mem_map_of_mem h))))

theorem oneOf_name {s : Struct} {e : Hidden} (h : e ∈ s.oneOf) : e.go ∈ s.names := by
  unfold Struct.names
  simp only [List.mem_append]
  exact .inl (.inl (.inr (List.mem_map_of_mem h)))

theorem pattern_name {s : Struct} {q : PatField} (h : q ∈ s.patterns) : q.go ∈ s.names := by
  unfold Struct.names
  simp only [List.mem_append]
  exact .inl (.inr (List.mem_map_of_mem h))

theorem additional_name {s : Struct} {a : Hidden} (h : s.additional = some a) : a.go ∈ s.names := by
  unfold Struct.names
  simp [h]

theorem encodePart_fields {s : Struct} {val : String → Val} (hnd : s.names.Nodup)
    (he : ∀ f ∈ s.fields, ∃ j, encode T f.ty (val f.go) = some j) :
    encodePart s ((s.names.map (fun go => (go, val go))).map (slotFor T)) .fields =
      some (.obj (fieldMembers T s val)) := by
  simp only [encodePart]
  rw [encodeFields_eq (val := val) (fun f hf => slotOf_structOf hnd (field_name hf)) he]
  rfl

theorem encodePart_hidden {s : Struct} {val : String → Val} (hnd : s.names.Nodup) {go : String} {ty : Ty}
    (hgo : go ∈ s.names) (hty : hiddenTy s go = some ty) :
    encodePart s ((s.names.map (fun go => (go, val go))).map (slotFor T)) (.hidden go) = encode T ty (val go) := by
  simp only [encodePart]
  rw [slotOf_structOf hnd hgo, hty]
  rfl

/-- A struct without alternatives is written as an object; so is one with further parts after the usual ones. -/
theorem encode_parts {n : String} {s : Struct} (hn : GoMap.get? T n = some (.struct s)) {val : String → Val}
    (hnd : s.names.Nodup) {X : List String} (hparts : s.parts = canonParts s ++ X.map .hidden)
    (hhid : ∀ h ∈ s.hidden, hiddenTy s h.go = some h.ty)
    (he : ∀ f ∈ s.fields, ∃ j, encode T f.ty (val f.go) = some j)
    (hp : ∀ q ∈ s.patterns, MapOk T q.ty (val q.go))
    (ha : ∀ a, s.additional = some a → MapOk T a.ty (val a.go)) {J : String → Any}
    (hX : ∀ go ∈ X, ∃ ty, hiddenTy s go = some ty ∧ go ∈ s.names ∧ encode T ty (val go) = some (J go) ∧ IsPart (J go)) :
    encode T (.named n) (structOf s val) =
      some (.obj (constMembers s ++ fieldMembers T s val ++ patMembers T s val ++ addMembers T s val ++
        X.flatMap (fun go => objMembers (J go)))) := by
  unfold structOf
  rw [encode_struct hn, hparts]
  generalize hfs : (s.names.map (fun go => (go, val go))).map (slotFor T) = fs
  have h1 : mapAll (encodePart s fs) (if s.consts = [] then [] else [.consts s.consts]) =
      some (if s.consts = [] then [] else [.obj (constMembers s)]) := by
    split <;> rfl
  have h2 : mapAll (encodePart s fs) (if s.fields = [] then [] else [.fields]) =
      some (if s.fields = [] then [] else [.obj (fieldMembers T s val)]) := by
    split
    · rfl
    · simp only [mapAll]
      rw [← hfs, encodePart_fields hnd he]
  have h3 : mapAll (encodePart s fs) (s.patterns.map (fun q => .hidden q.go)) =
      some (s.patterns.map (fun q => enc T (.map q.ty) (val q.go))) := by
    rw [mapAll_map]
    apply mapAll_some_of
    intro q hq
    rw [← hfs, encodePart_hidden (ty := .map q.ty) hnd (pattern_name hq)]
    · obtain ⟨j, h, _⟩ := encode_mapOk (hp q hq)
      exact enc_some ⟨j, h⟩
    · refine hhid ⟨q.go, .map q.ty⟩ ?_
      unfold Struct.hidden
      simp only [List.mem_append]
      exact .inl (.inr (List.mem_map.2 ⟨q, hq, rfl⟩))
  have h4 : mapAll (encodePart s fs) (match s.additional with
      | some a => [.hidden a.go]
      | none => []) = some (match s.additional with
      | some a => [enc T (.map a.ty) (val a.go)]
      | none => []) := by
    cases hadd : s.additional with
    | none => rfl
    | some a =>
      simp only [mapAll]
      rw [← hfs, encodePart_hidden (ty := .map a.ty) hnd (additional_name hadd)]
      · obtain ⟨j, h, _⟩ := encode_mapOk (ha a hadd)
        rw [enc_some ⟨j, h⟩]
      · refine hhid ⟨a.go, .map a.ty⟩ ?_
        unfold Struct.hidden
        simp [hadd]
  have h5 : mapAll (encodePart s fs) (X.map .hidden) = some (X.map J) := by
    rw [mapAll_map]
    apply mapAll_some_of
    intro go hgo
    obtain ⟨ty, e1, e2, e3, _⟩ := hX go hgo
    rw [← hfs, encodePart_hidden hnd e2 e1, e3]
  unfold canonParts
  rw [mapAll_append, mapAll_append, mapAll_append, mapAll_append, h1, h2, h3, h4, h5]
  simp only
  rw [unionJ_parts]
  · congr 2
    simp only [List.flatMap_append]
    congr 1
    · congr 1
      · congr 1
        · congr 1
          · split
            · rename_i e; simp [constMembers, e]
            · simp [objMembers]
          · split
            · rename_i e; simp [fieldMembers, e]
            · simp [objMembers]
        · unfold patMembers
          rw [List.flatMap_map]
          apply flatMap_congr'
          intro q hq
          obtain ⟨j, h, _, h'⟩ := encode_mapOk (hp q hq)
          rw [enc_of h, h']
      · unfold addMembers
        cases hadd : s.additional with
        | none => rfl
        | some a =>
          obtain ⟨j, h, _, h'⟩ := encode_mapOk (ha a hadd)
          simp [enc_of h, h']
    · rw [List.flatMap_map]
  · intro j hj
    simp only [List.mem_append] at hj
    rcases hj with (((hj | hj) | hj) | hj) | hj
    · split at hj
      · cases hj
      · rw [List.mem_singleton] at hj
        exact .inr ⟨_, hj⟩
    · split at hj
      · cases hj
      · rw [List.mem_singleton] at hj
        exact .inr ⟨_, hj⟩
    · obtain ⟨q, hq, rfl⟩ := List.mem_map.1 hj
      obtain ⟨j, h, h', _⟩ := encode_mapOk (hp q hq)
      rw [enc_of h]; exact h'
    · cases hadd : s.additional with
      | none => rw [hadd] at hj; cases hj
      | some a =>
        rw [hadd] at hj
        rw [List.mem_singleton] at hj
        obtain ⟨j', h, h', _⟩ := encode_mapOk (ha a hadd)
        rw [hj, enc_of h]; exact h'
    · obtain ⟨go, hgo, rfl⟩ := List.mem_map.1 hj
      obtain ⟨_, _, _, _, h⟩ := hX go hgo
      exact h

end Verif
