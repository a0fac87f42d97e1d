import Verif.Spec.Publish30
import Verif.Props.Meta30

/-! Go values of 3.0 documents that can be written. -/

namespace Verif.Pub30
open Codec Spec Meta Conform

variable {N : Nums} {S : Type}

abbrev Wri (N : Nums) (ty : Ty) (v : Val) : Prop := Writable V30.table N ok30 ty v

/-- Can be written, was not read, and nothing in it is written as `null`. -/
structure Good (N : Nums) (ty : Ty) (v : Val) : Prop where
  writable : Wri N ty v
  fresh : Everywhere noDerived v
  nulls : NoNulls V30.table ty v

/-- The value of a field; one that is left out may be nil. -/
structure FieldOk (N : Nums) (f : Field) (v : Val) : Prop where
  writable : Wri N f.ty v
  fresh : Everywhere noDerived v
  nulls : omitted f v = false → NoNulls V30.table f.ty v

theorem Good.field {f : Field} {v : Val} (h : Good N f.ty v) : FieldOk N f v := ⟨h.writable, h.fresh, fun _ => h.nulls⟩

theorem fresh_nil : Everywhere noDerived .nil := by intro fs h; cases h

/-- A field that is nil. -/
def nilable (f : Field) : Bool := f.omitempty && match f.ty with
  | .ptr _ => true
  | .slice _ => true
  | .map _ => true
  | _ => false

theorem fieldOk_nil {f : Field} (h : nilable f = true) : FieldOk N f .nil := by
  unfold nilable at h
  rw [Bool.and_eq_true] at h
  obtain ⟨ho, ht⟩ := h
  refine ⟨?_, fresh_nil, ?_⟩
  · split at ht
    · rename_i e; rw [e]; exact .nilPtr _
    · rename_i e; rw [e]; exact .nilSlice _
    · rename_i e; rw [e]; exact .nilMap _
    · cases ht
  · intro h
    exfalso
    unfold omitted at h
    rw [ho, Bool.true_and] at h
    split at ht
    · rename_i e; rw [e] at h; cases h
    · rename_i e; rw [e] at h; cases h
    · rename_i e; rw [e] at h; cases h
    · cases ht

/-- The value of a map of patterned keys. -/
def PatOk (N : Nums) (q : PatField) (v : Val) : Prop :=
  v = .nil ∨ (Good N (.map q.ty) v ∧ ∀ k ∈ Spec.keysOf v, q.pat.matches k = true)

/-- What is asked of the fields that are given. -/
def Given30 (N : Nums) (s : Codec.Struct) : List (String × Val) → Prop
  | [] => True
  | (go, v) :: l => (match s.fields.find? (·.go == go) with
      | some f => FieldOk N f v
      | none => match s.patterns.find? (·.go == go) with
        | some q => PatOk N q v
        | none => False) ∧ Given30 N s l

/-- The others may be nil, and nothing else is asked. -/
def simple (n : String) (s : Codec.Struct) (gos : List String) : Bool :=
  s.embeds.isEmpty && s.oneOf.isEmpty && n != "NonBearer" && s.additional.isNone && s.exactlyOne.isNone && s.lower.isEmpty &&
    s.nots.isEmpty && s.fields.all (fun f => gos.contains f.go || nilable f) &&
    decide (s.names.Nodup) && s.names.all (fun go => !derived.contains go) &&
    s.fields.all (fun f => s.fields.find? (·.go == f.go) == some f) &&
    s.patterns.all (fun q => s.patterns.find? (·.go == q.go) == some q && !(s.fields.map (·.go)).contains q.go) &&
    s.hidden.all (fun h => s.patterns.any (fun q => q.go == h.go && Ty.map q.ty == h.ty)) &&
    decide (gos.Nodup)

theorem given_get {s : Codec.Struct} {l : List (String × Val)} (h : Given30 N s l) {go : String} {v : Val}
    (hg : GoMap.get? l go = some v) : match s.fields.find? (·.go == go) with
      | some f => FieldOk N f v
      | none => match s.patterns.find? (·.go == go) with
        | some q => PatOk N q v
        | none => False := by
  induction l with
  | nil => cases hg
  | cons p l ih =>
    obtain ⟨k, x⟩ := p
    simp only [GoMap.get?] at hg
    split at hg
    · rename_i e
      subst e
      cases hg
      exact h.1
    · exact ih h.2 hg

theorem get?_none_iff {V : Type} {l : List (String × V)} {go : String} (h : (l.map Prod.fst).contains go = false) :
    GoMap.get? l go = none := by
  induction l with
  | nil => rfl
  | cons p l ih =>
    obtain ⟨k, x⟩ := p
    rw [List.map_cons, List.contains_cons, Bool.or_eq_false_iff] at h
    simp only [GoMap.get?]
    rw [if_neg (by intro e; subst e; simp at h), ih h.2]

theorem get?_some_of {V : Type} {l : List (String × V)} {go : String} (h : (l.map Prod.fst).contains go = true) :
    ∃ v, GoMap.get? l go = some v := by
  induction l with
  | nil => cases h
  | cons p l ih =>
    obtain ⟨k, x⟩ := p
    simp only [GoMap.get?]
    split
    · exact ⟨_, rfl⟩
    · rename_i e
      rw [List.map_cons, List.contains_cons, Bool.or_eq_true] at h
      rcases h with h | h
      · exact absurd (beq_iff_eq.1 h).symm e
      · exact ih h

/-- A struct with nothing special. -/
theorem good_fill {n : String} {s : Codec.Struct} (hn : GoMap.get? V30.table n = some (.struct s)) {l : List (String × Val)}
    (hc : simple n s (l.map Prod.fst) = true) (h : Given30 N s l) : Good N (.named n) (fill s l) := by
  simp only [simple, Bool.and_eq_true, List.isEmpty_iff, bne_iff_ne, Option.isNone_iff_eq_none, List.all_eq_true,
    decide_eq_true_eq, beq_iff_eq, Bool.or_eq_true, Bool.not_eq_true', List.any_eq_true] at hc
  obtain ⟨⟨⟨⟨⟨⟨⟨⟨⟨⟨⟨⟨⟨c1, c2⟩, c3⟩, c4⟩, c5⟩, c6⟩, c7⟩, c8⟩, c9⟩, c10⟩, c11⟩, c12⟩, c13⟩, c14⟩ := hc
  generalize hv : (fun go => (GoMap.get? l go).getD .nil) = val
  have hval : ∀ go, val go = (GoMap.get? l go).getD .nil := by intro go; rw [← hv]
  have hf : ∀ f ∈ s.fields, FieldOk N f (val f.go) := by
    intro f hf
    rw [hval]
    cases hb : (l.map Prod.fst).contains f.go with
    | true =>
      obtain ⟨v, e⟩ := get?_some_of hb
      have := given_get h e
      rw [c11 f hf] at this
      rw [e]
      exact this
    | false =>
      rw [get?_none_iff hb]
      rcases c8 f hf with h' | h'
      · rw [hb] at h'; cases h'
      · exact fieldOk_nil h'
  have hp : ∀ q ∈ s.patterns, PatOk N q (val q.go) := by
    intro q hq
    rw [hval]
    cases hb : (l.map Prod.fst).contains q.go with
    | true =>
      obtain ⟨v, e⟩ := get?_some_of hb
      have := given_get h e
      have hnf : s.fields.find? (·.go == q.go) = none := by
        rw [List.find?_eq_none]
        intro f hf he
        rw [beq_iff_eq] at he
        have h2 := (c12 q hq).2
        rw [List.contains_iff_mem.2 (List.mem_map.2 ⟨f, hf, he⟩)] at h2
        cases h2
      rw [hnf, (c12 q hq).1] at this
      rw [e]
      exact this
    | false =>
      rw [get?_none_iff hb]
      exact .inl rfl
  have hnames : ∀ go x, (go, x) ∈ s.names.map (fun go => (go, val go)) → go ∈ s.names ∧ x = val go := by
    intro go x hx
    obtain ⟨g, hg, e⟩ := List.mem_map.1 hx
    cases e
    exact ⟨hg, rfl⟩
  have hpart : ∀ go ∈ s.names, (∃ f ∈ s.fields, f.go = go) ∨ (∃ q ∈ s.patterns, q.go = go) := by
    intro go hgo
    unfold Codec.Struct.names at hgo
    rw [c1, c2, c4] at hgo
    simp only [List.map_nil, List.append_nil, List.mem_append, List.mem_map] at hgo
    exact hgo
  refine ⟨?_, ?_, ?_⟩
  · show Writable V30.table N ok30 (.named n) (structOf s _)
    rw [hv]
    refine .plain hn ⟨c1, c2⟩ c3 val (fun f hfm _ => (hf f hfm).writable) ?_ ?_ ?_ ?_ ?_ ?_ ?_
    · intro q hq
      rcases hp q hq with e | e
      · rw [e]; exact .nilMap _
      · exact e.1.writable
    · intro q hq k hk
      rcases hp q hq with e | e
      · rw [e] at hk; cases hk
      · exact e.2 k hk
    · intro a ha; rw [c4] at ha; cases ha
    · intro a ha; rw [c4] at ha; cases ha
    · intro a b e; rw [c5] at e; cases e
    · intro c hc; rw [c6] at hc; cases hc
    · intro t ht; rw [c7] at ht; cases ht
  · show Everywhere noDerived (structOf s _)
    rw [hv]
    intro fs hfs
    cases hfs with
    | self =>
      intro go hgo
      have : ¬go ∈ s.names := by
        intro hm
        have := c10 go hm
        rw [List.contains_iff_mem.2 hgo] at this
        cases this
      unfold fieldIn
      rw [get?_none_iff, Option.getD_none]
      rw [List.map_map, ← Bool.not_eq_true, List.contains_iff_mem]
      simpa using this
    | @struct k x _ _ hx hfs =>
      obtain ⟨hm, rfl⟩ := hnames _ _ hx
      rcases hpart _ hm with ⟨f, hfm, rfl⟩ | ⟨q, hq, rfl⟩
      · exact (hf f hfm).fresh _ hfs
      · rcases hp q hq with e | e
        · rw [e] at hfs; cases hfs
        · exact e.1.fresh _ hfs
  · show NoNulls V30.table (.named n) (structOf s _)
    rw [hv]
    intro t ht
    cases ht with
    | @field _ s' hn' f hfm _ x _ _ hx ho hpo =>
      rw [hn] at hn'
      cases hn'
      obtain ⟨_, rfl⟩ := hnames _ _ hx
      exact (hf f hfm).nulls ho t hpo
    | @hidden _ s' hn' f hfm _ x _ _ hx hv' hpo =>
      rw [hn] at hn'
      cases hn'
      obtain ⟨_, rfl⟩ := hnames _ _ hx
      obtain ⟨q, hq, e1, e2⟩ := c13 f hfm
      rw [← e1] at hv' hpo
      rw [← e2] at hpo
      rcases hp q hq with e | e
      · exact absurd e hv'
      · exact e.1.nulls t hpo

/-! ## Plain values -/

theorem part_str {s : String} {w : Val} (h : Part (.str s) w) : w = .str s := by cases h; rfl
theorem part_bool {b : Bool} {w : Val} (h : Part (.bool b) w) : w = .bool b := by cases h; rfl
theorem part_any {a : Any} {w : Val} (h : Part (.any a) w) : w = .any a := by cases h; rfl

theorem good_str (s : String) : Good N .str (.str s) := by
  refine ⟨.str s, ?_, ?_⟩
  · intro fs h; cases part_str h
  · intro t h; cases h

theorem good_bool (b : Bool) : Good N .bool (.bool b) := by
  refine ⟨.bool b, ?_, ?_⟩
  · intro fs h; cases part_bool h
  · intro t h; cases h

theorem good_any {a : Any} (h : decodeAny N a = some a) : Good N .any (.any a) := by
  refine ⟨.any h, ?_, ?_⟩
  · intro fs h; cases part_any h
  · intro t h; cases h

theorem good_enum {n : String} {vs : List String} (hn : GoMap.get? V30.table n = some (.enum vs)) {s : String} (h : s ∈ vs) :
    Good N (.named n) (.str s) := by
  refine ⟨.enum hn h, ?_, ?_⟩
  · intro fs h; cases part_str h
  · intro t h; cases h

theorem good_ptr {t : Ty} {v : Val} (ht : notPtr t = true) (h1 : v ≠ .nil) (h2 : v ≠ .any .null) (h : Good N t v) :
    Good N (.ptr t) v := by
  refine ⟨.ptr ht h1 h2 h.writable, h.fresh, ?_⟩
  intro t' h'
  cases h' with
  | self => exact h1 rfl
  | ptr _ h' => exact h.nulls _ h'

theorem good_slice {t : Ty} {vs : List Val} (h : ∀ v ∈ vs, Good N t v) : Good N (.slice t) (.list vs) := by
  refine ⟨.slice fun v hv => (h v hv).writable, ?_, ?_⟩
  · intro fs hfs
    cases hfs with
    | list hx hfs => exact (h _ hx).fresh _ hfs
  · intro t' h'
    cases h' with
    | elem hx h' => exact (h _ hx).nulls _ h'

theorem good_map {t : Ty} {ms : List (String × Val)} (hk : (ms.map Prod.fst).Nodup) (h : ∀ k v, (k, v) ∈ ms → Good N t v) :
    Good N (.map t) (.map ms) := by
  refine ⟨.map hk fun k v hv => (h k v hv).writable, ?_, ?_⟩
  · intro fs hfs
    cases hfs with
    | map hx hfs => exact (h _ _ hx).fresh _ hfs
  · intro t' h'
    cases h' with
    | entry hx h' => exact (h _ _ hx).nulls _ h'

/-! ## Fields -/

theorem fieldOk_opt {A : Type} {f : Field} {g : A → Val} {o : Option A} (hf : nilable f = true)
    (h : ∀ a, o = some a → Good N f.ty (g a)) : FieldOk N f (opt g o) := by
  cases o with
  | none => exact fieldOk_nil hf
  | some a => exact (h a rfl).field

theorem fieldOk_str {f : Field} {o : Option String} (hf : nilable f = true) (ht : f.ty = .ptr .str) :
    FieldOk N f (opt .str o) :=
  fieldOk_opt hf fun a _ => by rw [ht]; exact good_ptr rfl (by simp) (by simp) (good_str a)

theorem fieldOk_bool {f : Field} {o : Option Bool} (hf : nilable f = true) (ht : f.ty = .ptr .bool) :
    FieldOk N f (opt .bool o) :=
  fieldOk_opt hf fun a _ => by rw [ht]; exact good_ptr rfl (by simp) (by simp) (good_bool a)

theorem fieldOk_list {A : Type} {f : Field} {t : Ty} {g : A → Val} {l : List A} (hf : nilable f = true) (ht : f.ty = .slice t)
    (h : ∀ a ∈ l, Good N t (g a)) : FieldOk N f (listVal g l) := by
  cases l with
  | nil => exact fieldOk_nil hf
  | cons a l =>
    refine Good.field ?_
    rw [ht]
    exact good_slice (List.forall_mem_map.2 h)

theorem good_mapVal {A : Type} {t : Ty} {g : A → Val} {m : GoMap A} (hm : m ≠ []) (hk : Keys m)
    (h : ∀ k a, (k, a) ∈ m → Good N t (g a)) : Good N (.map t) (mapVal g m) := by
  cases m with
  | nil => exact absurd rfl hm
  | cons p m =>
    refine good_map ?_ ?_
    · unfold Keys at hk
      rw [List.map_map]
      exact hk
    · intro k v hv
      obtain ⟨⟨k', a⟩, ha, e⟩ := List.mem_map.1 hv
      cases e
      exact h _ a ha

theorem keysOf_mapVal {A : Type} {g : A → Val} {m : GoMap A} {k : String} (h : k ∈ Spec.keysOf (mapVal g m)) :
    ∃ a, (k, a) ∈ m := by
  cases m with
  | nil => cases h
  | cons p m =>
    simp only [mapVal, Spec.keysOf, List.map_map, List.mem_map] at h
    obtain ⟨⟨k', a⟩, ha, rfl⟩ := h
    exact ⟨a, ha⟩

theorem fieldOk_map {A : Type} {f : Field} {t : Ty} {g : A → Val} {m : GoMap A} (hf : nilable f = true) (ht : f.ty = .map t)
    (hk : Keys m) (h : ∀ k a, (k, a) ∈ m → Good N t (g a)) : FieldOk N f (mapVal g m) := by
  cases m with
  | nil => exact fieldOk_nil hf
  | cons p m =>
    refine Good.field ?_
    rw [ht]
    exact good_mapVal (by simp) hk h

theorem patOk_map {A : Type} {q : PatField} {g : A → Val} {m : GoMap A} (hk : Keys m)
    (h : ∀ k a, (k, a) ∈ m → q.pat.matches k = true ∧ Good N q.ty (g a)) : PatOk N q (mapVal g m) := by
  cases m with
  | nil => exact .inl rfl
  | cons p m =>
    refine .inr ⟨good_mapVal (by simp) hk fun k a ha => (h k a ha).2, ?_⟩
    intro k hk
    obtain ⟨a, ha⟩ := keysOf_mapVal hk
    exact (h k a ha).1

/-! ## Alternatives -/

theorem good_alt {n : String} {s : Codec.Struct} (hn : GoMap.get? V30.table n = some (.struct s))
    (hs : s = { oneOf := s.oneOf, parts := s.oneOf.map (fun h => .hidden h.go) })
    (hd : s.oneOf.all (fun h => !derived.contains h.go) = true) {go : String} {t : Ty} {v : Val}
    (ho : ⟨go, .ptr t⟩ ∈ s.oneOf) (hu : s.oneOf.all (fun h => h.go != go || h.ty == .ptr t) = true)
    (hv : v ≠ .nil) (h : Good N (.ptr t) v) :
    Good N (.named n) (.struct (s.oneOf.map (fun h => (h.go, if h.go = go then v else .nil)))) := by
  refine ⟨.union hn hs ho hv h.writable trivial, ?_, ?_⟩
  · intro fs hfs
    cases hfs with
    | self =>
      intro g hg
      unfold fieldIn
      rw [get?_none_iff, Option.getD_none]
      rw [List.map_map, ← Bool.not_eq_true, List.contains_iff_mem]
      intro hm
      obtain ⟨a, ha, e⟩ := List.mem_map.1 hm
      have := List.all_eq_true.1 hd a ha
      simp only [Function.comp] at e
      rw [e, List.contains_iff_mem.2 hg] at this
      cases this
    | @struct k x _ _ hx hfs =>
      obtain ⟨a, _, e⟩ := List.mem_map.1 hx
      simp only [Prod.mk.injEq] at e
      obtain ⟨_, rfl⟩ := e
      split at hfs
      · exact h.fresh _ hfs
      · cases hfs
  · intro t' ht
    cases ht with
    | @field _ s' hn' f hfm _ x _ _ hx hom hpo =>
      rw [hn] at hn'
      cases hn'
      rw [hs] at hfm
      cases hfm
    | @hidden _ s' hn' f hfm _ x _ _ hx hv' hpo =>
      rw [hn] at hn'
      cases hn'
      have hfo : f ∈ s.oneOf := by
        rw [hs] at hfm
        simpa [Codec.Struct.hidden] using hfm
      obtain ⟨a, _, e⟩ := List.mem_map.1 hx
      simp only [Prod.mk.injEq] at e
      obtain ⟨e1, rfl⟩ := e
      split at hpo
      · rename_i e2
        have := List.all_eq_true.1 hu f hfo
        simp only [Bool.or_eq_true, bne_iff_ne, ne_eq, beq_iff_eq] at this
        rcases this with h' | h'
        · exact absurd (e1.symm.trans e2) h'
        · rw [h'] at hpo
          exact h.nulls _ hpo
      · rename_i e2
        rw [if_neg e2] at hv'
        exact hv' rfl

/-- A reference or a value. -/
theorem good_refOr {A : Type} {n refN valN : String} {s refS : Codec.Struct} {refGo go : String} {g : A → Val}
    {ref : Option String} {value : Option A} {Ok : A → Prop}
    (hn : GoMap.get? V30.table n = some (.struct s))
    (hs : s = ⟨[], [], false, [], [⟨refGo, .ptr (.named refN)⟩, ⟨go, .ptr (.named valN)⟩], [], none, [], [], [], [], [], [], [],
      none, false, [.hidden refGo, .hidden go]⟩)
    (hg : refGo ≠ go) (hd : refGo ∉ derived ∧ go ∉ derived)
    (hr : ∀ r, Good N (.named refN) (fill refS [("Ref", .str r)])) (hv : ∀ a, Ok a → Good N (.named valN) (g a))
    (hne : ∀ a, ∃ fs, g a = .struct fs) (h : RefOr Ok ref value) :
    Good N (.named n) (refOrVal s refS refGo go g ref value) := by
  have e : ∀ x y : Val, fill s [(refGo, x), (go, y)] = .struct [(refGo, x), (go, y)] := by
    intro x y
    subst hs
    simp [fill, Spec.structOf, Codec.Struct.names, GoMap.get?, hg]
  unfold refOrVal
  rw [e]
  have hall : s.oneOf = [⟨refGo, .ptr (.named refN)⟩, ⟨go, .ptr (.named valN)⟩] := by rw [hs]
  rcases h with ⟨r, rfl, rfl⟩ | ⟨a, rfl, rfl, ha⟩
  · have := good_alt (go := refGo) (t := .named refN) (v := fill refS [("Ref", .str r)]) hn (by rw [hs]; rfl)
      (by rw [hall]; simp [hd]) (by rw [hall]; simp) (by rw [hall]; simp [Ne.symm hg]) (by intro e; cases e)
      (good_ptr rfl (by intro e; cases e) (by intro e; cases e) (hr r))
    rw [hall] at this
    simpa [opt, Ne.symm hg] using this
  · obtain ⟨fs, hfs⟩ := hne a
    have := good_alt (go := go) (t := .named valN) (v := g a) hn (by rw [hs]; rfl)
      (by rw [hall]; simp [hd]) (by rw [hall]; simp) (by rw [hall]; simp [hg]) (by rw [hfs]; intro e; cases e)
      (good_ptr rfl (by rw [hfs]; intro e; cases e) (by rw [hfs]; intro e; cases e) (hv a ha))
    rw [hall] at this
    simpa [opt, hg] using this

/-! ## Structs with derived fields -/

/-- The others may be nil, and the alternatives are derived fields, which are nil. -/
def semi (s : Codec.Struct) (gos : List String) : Bool :=
  s.additional.isNone && s.fields.all (fun f => gos.contains f.go || nilable f) && gos.all (fun go => !derived.contains go) &&
    s.fields.all (fun f => s.fields.find? (·.go == f.go) == some f) &&
    s.patterns.all (fun q => s.patterns.find? (·.go == q.go) == some q && !(s.fields.map (·.go)).contains q.go) &&
    (s.embeds ++ s.oneOf).all (fun h => derived.contains h.go)

theorem semi_facts {s : Codec.Struct} {l : List (String × Val)} (hc : semi s (l.map Prod.fst) = true) (h : Given30 N s l)
    {val : String → Val} (hval : ∀ go, val go = (GoMap.get? l go).getD .nil) :
    (∀ f ∈ s.fields, FieldOk N f (val f.go)) ∧ (∀ q ∈ s.patterns, PatOk N q (val q.go)) ∧
      (∀ go ∈ derived, val go = .nil) := by
  simp only [semi, Bool.and_eq_true, Option.isNone_iff_eq_none, List.all_eq_true,
    beq_iff_eq, Bool.or_eq_true, Bool.not_eq_true'] at hc
  obtain ⟨⟨⟨⟨⟨_, c8⟩, c10⟩, c11⟩, c12⟩, _⟩ := hc
  refine ⟨?_, ?_, ?_⟩
  · intro f hf
    rw [hval]
    cases hb : (l.map Prod.fst).contains f.go with
    | true =>
      obtain ⟨v, e⟩ := get?_some_of hb
      have := given_get h e
      rw [c11 f hf] at this
      rw [e]
      exact this
    | false =>
      rw [get?_none_iff hb]
      rcases c8 f hf with h' | h'
      · rw [hb] at h'; cases h'
      · exact fieldOk_nil h'
  · intro q hq
    rw [hval]
    cases hb : (l.map Prod.fst).contains q.go with
    | true =>
      obtain ⟨v, e⟩ := get?_some_of hb
      have := given_get h e
      have hnf : s.fields.find? (·.go == q.go) = none := by
        rw [List.find?_eq_none]
        intro f hf he
        rw [beq_iff_eq] at he
        have h2 := (c12 q hq).2
        rw [List.contains_iff_mem.2 (List.mem_map.2 ⟨f, hf, he⟩)] at h2
        cases h2
      rw [hnf, (c12 q hq).1] at this
      rw [e]
      exact this
    | false =>
      rw [get?_none_iff hb]
      exact .inl rfl
  · intro go hgo
    rw [hval]
    cases hb : (l.map Prod.fst).contains go with
    | true =>
      have := c10 go (List.contains_iff_mem.1 hb)
      rw [List.contains_iff_mem.2 hgo] at this
      cases this
    | false => rw [get?_none_iff hb]; rfl

theorem good_semi {n : String} {s : Codec.Struct} (hn : GoMap.get? V30.table n = some (.struct s)) {l : List (String × Val)}
    (hc : semi s (l.map Prod.fst) = true) (h : Given30 N s l) (hw : Wri N (.named n) (fill s l)) :
    Good N (.named n) (fill s l) := by
  generalize hv : (fun go => (GoMap.get? l go).getD .nil) = val
  have hval : ∀ go, val go = (GoMap.get? l go).getD .nil := by intro go; rw [← hv]
  obtain ⟨hf, hp, hdv⟩ := semi_facts hc h hval
  simp only [semi, Bool.and_eq_true, Option.isNone_iff_eq_none, List.all_eq_true,
    beq_iff_eq, Bool.or_eq_true, Bool.not_eq_true'] at hc
  obtain ⟨⟨⟨⟨⟨c4, _⟩, _⟩, _⟩, _⟩, c13⟩ := hc
  have hnames : ∀ go x, (go, x) ∈ s.names.map (fun go => (go, val go)) → go ∈ s.names ∧ x = val go := by
    intro go x hx
    obtain ⟨g, hg, e⟩ := List.mem_map.1 hx
    cases e
    exact ⟨hg, rfl⟩
  have hhid : ∀ f ∈ s.hidden, val f.go = .nil ∨ ∃ q ∈ s.patterns, q.go = f.go ∧ f.ty = .map q.ty := by
    intro f hf
    unfold Codec.Struct.hidden at hf
    rw [c4, List.append_nil, List.mem_append] at hf
    rcases hf with hf | hf
    · exact .inl (hdv _ (List.contains_iff_mem.1 (c13 f hf)))
    · obtain ⟨q, hq, rfl⟩ := List.mem_map.1 hf
      exact .inr ⟨q, hq, rfl, rfl⟩
  have hpart : ∀ go ∈ s.names, (∃ f ∈ s.fields, f.go = go) ∨ (∃ q ∈ s.patterns, q.go = go) ∨ val go = .nil := by
    intro go hgo
    unfold Codec.Struct.names at hgo
    rw [c4] at hgo
    simp only [List.append_nil, List.mem_append, List.mem_map] at hgo
    rcases hgo with ((hgo | ⟨f, hf, rfl⟩) | ⟨f, hf, rfl⟩) | hgo
    · exact .inl hgo
    · exact .inr (.inr (hdv _ (List.contains_iff_mem.1 (c13 f (List.mem_append_left _ hf)))))
    · exact .inr (.inr (hdv _ (List.contains_iff_mem.1 (c13 f (List.mem_append_right _ hf)))))
    · exact .inr (.inl hgo)
  refine ⟨hw, ?_, ?_⟩
  · show Everywhere noDerived (Spec.structOf s _)
    rw [hv]
    intro fs hfs
    cases hfs with
    | self =>
      intro go hgo
      unfold fieldIn
      cases e : GoMap.get? (s.names.map (fun go => (go, val go))) go with
      | none => rfl
      | some x =>
        obtain ⟨_, rfl⟩ := hnames _ _ (Codec.get?_mem e)
        exact hdv go hgo
    | @struct k x _ _ hx hfs =>
      obtain ⟨hm, rfl⟩ := hnames _ _ hx
      rcases hpart _ hm with ⟨f, hfm, rfl⟩ | ⟨q, hq, rfl⟩ | e
      · exact (hf f hfm).fresh _ hfs
      · rcases hp q hq with e | e
        · rw [e] at hfs; cases hfs
        · exact e.1.fresh _ hfs
      · rw [e] at hfs; cases hfs
  · show NoNulls V30.table (.named n) (Spec.structOf s _)
    rw [hv]
    intro t ht
    cases ht with
    | @field _ s' hn' f hfm _ x _ _ hx ho hpo =>
      rw [hn] at hn'
      cases hn'
      obtain ⟨_, rfl⟩ := hnames _ _ hx
      exact (hf f hfm).nulls ho t hpo
    | @hidden _ s' hn' f hfm _ x _ _ hx hv' hpo =>
      rw [hn] at hn'
      cases hn'
      obtain ⟨_, rfl⟩ := hnames _ _ hx
      rcases hhid f hfm with e | ⟨q, hq, e1, e2⟩
      · exact hv' e
      · rw [← e1] at hv' hpo
        rw [e2] at hpo
        rcases hp q hq with e | e
        · exact absurd e hv'
        · exact e.1.nulls t hpo

/-! ## The structs -/

/-- Numbers that are written for integers can be read as numbers. -/
abbrev IntsFloat (N : Nums) : Prop := ∀ l, N.i64 l = some l → N.f64 l ≠ none

theorem encodable (hF : IntsFloat N) {ty : Ty} {v : Val} (h : Good N ty v) :
    ∃ a, encode V30.table ty v = some a ∧ decodeAny N a ≠ none := by
  obtain ⟨a, _, ha, _⟩ := C35_roundtrip30 N ty v h.writable
  have hwr := (writable_wr hF h.writable h.fresh).floats
  rw [enc_of ha] at hwr
  obtain ⟨b, hb⟩ := decodeAny_literals a (fun x hx => Option.ne_none_iff_exists'.1 (hwr x hx))
  exact ⟨a, ha, by rw [hb]; simp⟩

section
variable {Sc : S → Prop} {sv : S → Val}

theorem good_named {f : Field} {t : Ty} {v : Val} (ht : f.ty = t) (h : Good N t v) : FieldOk N f v := by
  subst ht; exact h.field

theorem fieldOk_ptr {A : Type} {f : Field} {n : String} {g : A → Val} {o : Option A} (hf : nilable f = true)
    (ht : f.ty = .ptr (.named n)) (hne : ∀ a, ∃ fs, g a = .struct fs) (h : ∀ a, o = some a → Good N (.named n) (g a)) :
    FieldOk N f (opt g o) := by
  refine fieldOk_opt hf fun a ha => ?_
  rw [ht]
  obtain ⟨fs, e⟩ := hne a
  exact good_ptr rfl (by rw [e]; simp) (by rw [e]; simp) (h a ha)

/-- The values of schemas. -/
structure SchemaVals (N : Nums) (Sc : S → Prop) (sv : S → Val) : Prop where
  struct : ∀ s, ∃ fs, sv s = .struct fs
  good : ∀ s, Sc s → Good N (.named "SchemaOrRef") (sv s)

theorem good_media (hS : SchemaVals N Sc sv) {mt : MediaType S} (h : MediaOk (Always Sc) mt) :
    Good N (.named "MediaType") (mediaVal sv mt) := by
  refine good_fill (by kernel_rfl) (by rfl) ⟨?_, trivial⟩
  exact fieldOk_ptr rfl rfl hS.struct fun s hs => hS.good s (h.2 s hs)

theorem good_content (hS : SchemaVals N Sc sv) {m : GoMap (MediaType S)} (h : ContentOk (Always Sc) m) (hm : m ≠ []) :
    Good N (.map (.named "MediaType")) (mapVal (mediaVal sv) m) :=
  good_mapVal hm h.1 fun k mt hk => good_media hS (h.2 k mt hk)

theorem media_struct (mt : MediaType S) : ∃ fs, mediaVal sv mt = .struct fs := ⟨_, rfl⟩

/-! ### Parameters -/

theorem styles_str {i st : String} (_ : st ∈ styles i) : (Val.str st) ≠ .nil := by simp

theorem good_param (hF : IntsFloat N) (hS : SchemaVals N Sc sv) {p : Parameter S} (h : ParamOk places (Always Sc) p) :
    Good N (.named "Parameter") (paramVal sv p) := by
  have hn : GoMap.get? V30.table "Parameter" = some (.struct V30.sParameter) := by kernel_rfl
  have hc : (p.content = [] ∨ ContentOk (Always Sc) p.content) := by
    rcases h.value with ⟨s, _, _, e⟩ | ⟨_, mime, mt, e, hm⟩
    · exact .inl e
    · refine .inr ?_
      rw [e]
      refine ⟨by simp [Keys], ?_⟩
      intro k mt' hk
      cases List.mem_singleton.1 hk
      exact hm
  have hsc : ∀ s, p.schema = some s → Sc s := by
    intro s hs
    rcases h.value with ⟨s', e, hs', _⟩ | ⟨e, _⟩
    · rw [e] at hs; cases hs; exact hs'
    · rw [e] at hs; cases hs
  have hg : Given30 N V30.sParameter [("Name", .str p.name), ("In", .str p.inn), ("Description", opt .str p.description),
      ("Required", opt .bool p.required), ("Deprecated", opt .bool p.deprecated), ("Style", opt .str p.style),
      ("Explode", opt .bool p.explode), ("Schema", opt sv p.schema), ("Content", mapVal (mediaVal sv) p.content)] := by
    refine ⟨?_, ?_, ?_, ?_, ?_, ?_, ?_, ?_, ?_, trivial⟩
    · exact good_named rfl (good_str _)
    · exact good_named rfl (good_enum (by kernel_rfl) h.place)
    · exact fieldOk_str rfl rfl
    · exact fieldOk_bool rfl rfl
    · exact fieldOk_bool rfl rfl
    · exact fieldOk_str rfl rfl
    · exact fieldOk_bool rfl rfl
    · exact fieldOk_ptr rfl rfl hS.struct fun s hs => hS.good s (hsc s hs)
    · rcases hc with e | hc
      · rw [e]; exact fieldOk_nil rfl
      · exact fieldOk_map rfl rfl hc.1 fun k mt hk => good_media hS (hc.2 k mt hk)
  refine good_semi hn (by rfl) hg ?_
  generalize hv : (fun go => (GoMap.get? [("Name", Val.str p.name), ("In", .str p.inn), ("Description", opt .str p.description),
      ("Required", opt .bool p.required), ("Deprecated", opt .bool p.deprecated), ("Style", opt .str p.style),
      ("Explode", opt .bool p.explode), ("Schema", opt sv p.schema), ("Content", mapVal (mediaVal sv) p.content)] go).getD
        .nil) = val
  obtain ⟨hf, hp, hdv⟩ := semi_facts (by rfl) hg (val := val) (fun go => by rw [← hv])
  show Wri N _ (Spec.structOf V30.sParameter _)
  rw [hv]
  have e1 : val "MapOfAnything" = .nil := by rw [← hv]; rfl
  have e2 : val "Schema" = opt sv p.schema := by rw [← hv]; rfl
  have e3 : val "Content" = mapVal (mediaVal sv) p.content := by rw [← hv]; rfl
  have e4 : val "SchemaXORContent" = .nil := hdv _ (by simp [derived])
  have hx : ∃ a, (val "Schema" ≠ .nil ∧ isEmpty (val "Content") = true ∧
        encode V30.table (.ptr (.named "SchemaOrRef")) (val "Schema") = some a ∧ decodeAny N a ≠ none) ∨
      (val "Schema" = .nil ∧ isEmpty (val "Content") = false ∧
        encode V30.table (.map (.named "MediaType")) (val "Content") = some a ∧ decodeAny N a ≠ none) := by
    rw [e2, e3]
    rcases h.value with ⟨s, hs, hsc, e⟩ | ⟨hs, mime, mt, e, hm⟩
    · obtain ⟨fs, hfs⟩ := hS.struct s
      obtain ⟨a, ha, hda⟩ := encodable hF
        (good_ptr (t := .named "SchemaOrRef") rfl (by rw [hfs]; simp) (by rw [hfs]; simp) (hS.good s hsc))
      rw [hs, e]
      exact ⟨a, .inl ⟨by rw [opt, hfs]; simp, rfl, ha, hda⟩⟩
    · have hcc : ContentOk (Always Sc) p.content := by
        rcases hc with e' | hc
        · rw [e] at e'; cases e'
        · exact hc
      obtain ⟨a, ha, hda⟩ := encodable hF (good_content hS hcc (by rw [e]; simp))
      rw [hs]
      refine ⟨a, .inr ⟨rfl, ?_, ha, hda⟩⟩
      rw [e]; rfl
  obtain ⟨a, hx⟩ := hx
  refine .parameter hn val (fun f hfm _ => (hf f hfm).writable) (by rw [e1]; exact .nilMap _)
    (by rw [e1]; intro k hk; cases hk) (a := a) ?_ (i := p.inn) (by rw [← hv]; rfl) ?_ ?_ (.inl (hdv _ (by simp [derived])))
  · rcases hx with ⟨h1, h2, h3, h4⟩ | ⟨h1, h2, h3, h4⟩
    · exact .inl ⟨h1, h2, h3, .inl ⟨e4, h4⟩⟩
    · exact .inr ⟨h1, h2, h3, .inl ⟨e4, h4⟩⟩
  · intro e
    have : val "Required" = opt .bool p.required := by rw [← hv]; rfl
    rw [this, h.required e]
    rfl
  · have : val "Style" = opt .str p.style := by rw [← hv]; rfl
    rw [this]
    cases hs : p.style with
    | none => exact .inl rfl
    | some st => exact .inr ⟨st, h.style st hs, rfl⟩

theorem good_paramOrRef (hF : IntsFloat N) (hS : SchemaVals N Sc sv) {p : ParamOrRef S}
    (h : RefOr (ParamOk places (Always Sc)) p.ref p.param) : Good N (.named "ParameterOrRef") (paramOrRefVal sv p) :=
  good_refOr (refN := "ParameterReference") (valN := "Parameter") (by kernel_rfl) rfl (by decide) (by decide)
    (fun r => good_fill (by kernel_rfl) (by rfl) ⟨good_named rfl (good_str _), trivial⟩)
    (fun _ => good_param hF hS) (fun _ => ⟨_, rfl⟩) h

/-! ### Headers, responses, bodies -/

theorem good_header (hS : SchemaVals N Sc sv) {p : Header S} (h : HeaderOk (Always Sc) p) : Good N (.named "Header") (headerVal sv p) := by
  refine good_fill (by kernel_rfl) (by rfl) ⟨?_, ?_, ?_, ?_, trivial⟩
  · exact fieldOk_str rfl rfl
  · exact fieldOk_bool rfl rfl
  · exact fieldOk_bool rfl rfl
  · refine fieldOk_ptr rfl rfl hS.struct fun s hs => hS.good s ?_
    obtain ⟨s', e, h⟩ := h
    rw [e] at hs
    cases hs
    exact h

theorem good_headerOrRef (hS : SchemaVals N Sc sv) {p : HeaderOrRef S} (h : RefOr (HeaderOk (Always Sc)) p.ref p.header) :
    Good N (.named "HeaderOrRef") (headerOrRefVal sv p) :=
  good_refOr (refN := "HeaderReference") (valN := "Header") (by kernel_rfl) rfl (by decide) (by decide)
    (fun r => good_fill (by kernel_rfl) (by rfl) ⟨good_named rfl (good_str _), trivial⟩)
    (fun _ => good_header hS) (fun _ => ⟨_, rfl⟩) h

theorem good_response (hS : SchemaVals N Sc sv) {p : Response S} (h : ResponseOk (Always Sc) p) :
    Good N (.named "Response") (responseVal sv p) := by
  refine good_fill (by kernel_rfl) (by rfl) ⟨?_, ?_, ?_, trivial⟩
  · exact good_named rfl (good_str _)
  · exact fieldOk_map rfl rfl h.headerKeys fun k x hx => good_headerOrRef hS (h.headers k x hx)
  · exact fieldOk_map rfl rfl h.content.1 fun k x hx => good_media hS (h.content.2 k x hx)

theorem good_responseOrRef (hS : SchemaVals N Sc sv) {p : ResponseOrRef S} (h : RefOr (ResponseOk (Always Sc)) p.ref p.response) :
    Good N (.named "ResponseOrRef") (responseOrRefVal sv p) :=
  good_refOr (refN := "ResponseReference") (valN := "Response") (by kernel_rfl) rfl (by decide) (by decide)
    (fun r => good_fill (by kernel_rfl) (by rfl) ⟨good_named rfl (good_str _), trivial⟩)
    (fun _ => good_response hS) (fun _ => ⟨_, rfl⟩) h

theorem good_body (hS : SchemaVals N Sc sv) {p : RequestBody S} (h : BodyOk (Always Sc) p) :
    Good N (.named "RequestBody") (bodyVal sv p) := by
  refine good_fill (by kernel_rfl) (by rfl) ⟨?_, ?_, trivial⟩
  · exact fieldOk_str rfl rfl
  · exact good_named rfl (good_content hS h.2 h.1)

theorem good_bodyOrRef (hS : SchemaVals N Sc sv) {p : RequestBodyOrRef S} (h : RefOr (BodyOk (Always Sc)) p.ref p.body) :
    Good N (.named "RequestBodyOrRef") (bodyOrRefVal sv p) :=
  good_refOr (refN := "RequestBodyReference") (valN := "RequestBody") (by kernel_rfl) rfl (by decide) (by decide)
    (fun r => good_fill (by kernel_rfl) (by rfl) ⟨good_named rfl (good_str _), trivial⟩)
    (fun _ => good_body hS) (fun _ => ⟨_, rfl⟩) h

theorem pat_status {k : String} (h : StatusKey k) : Pat.matches .status k = true := by
  obtain ⟨a, b, c, e, h1, h2⟩ := h
  simp only [Pat.matches, e, Bool.and_eq_true, decide_eq_true_eq, Bool.or_eq_true, beq_iff_eq]
  exact ⟨h1, h2⟩

theorem pat_x {k : String} (h : "x-".toList <+: k.toList) : Pat.matches .x k = true := by
  obtain ⟨t, e⟩ := h
  have : k.toList = 'x' :: '-' :: t := e.symm
  simp [Pat.matches, this]

theorem pat_slash {k : String} (h : ['/'] <+: k.toList) : Pat.matches .slash k = true := by
  obtain ⟨t, e⟩ := h
  have : k.toList = '/' :: t := e.symm
  simp [Pat.matches, this]

theorem pat_name {k : String} (h : IsName k) : Pat.matches .name k = true := by
  obtain ⟨h1, h2⟩ := h
  simp only [Pat.matches, Bool.and_eq_true, Bool.not_eq_true', List.all_eq_true, Bool.or_eq_true, beq_iff_eq]
  refine ⟨by cases e : k.toList with
    | nil => exact absurd e h1
    | cons => rfl, fun c hc => ?_⟩
  rcases h2 c hc with h | h | h | h <;> simp [h]

theorem good_responses (hS : SchemaVals N Sc sv) {key : String → Prop} (hk : ∀ k, key k → StatusKey k) {op : Operation S}
    (h : OperationOk places (Always Sc) key op) : Good N (.named "Responses") (responsesVal sv op.responses) := by
  refine good_fill (by kernel_rfl) (by rfl) ⟨?_, ?_, trivial⟩
  · exact fieldOk_ptr rfl rfl (fun _ => ⟨_, rfl⟩) fun r hr => good_responseOrRef hS (h.default r hr)
  · exact patOk_map h.codeKeys fun k r hr => ⟨pat_status (hk k (h.codes k r hr).1), good_responseOrRef hS (h.codes k r hr).2⟩

/-! ### Operations and path items -/

theorem good_security (p : String × List String) : Good N (.map (.slice .str)) (securityVal p) := by
  refine good_map (by simp) ?_
  intro k v hv
  cases List.mem_singleton.1 hv
  exact good_slice (List.forall_mem_map.2 fun s _ => good_str s)

theorem good_operation (hF : IntsFloat N) (hS : SchemaVals N Sc sv) {op : Operation S}
    (h : OperationOk places (Always Sc) StatusKey op) : Good N (.named "Operation") (operationVal sv op) := by
  refine good_fill (by kernel_rfl) (by rfl) ⟨?_, ?_, ?_, ?_, ?_, ?_, ?_, ?_, ?_, ?_, trivial⟩
  · exact fieldOk_list rfl rfl fun s _ => good_str s
  · exact fieldOk_str rfl rfl
  · exact fieldOk_str rfl rfl
  · exact fieldOk_str rfl rfl
  · exact fieldOk_list rfl rfl fun p hp => good_paramOrRef hF hS (h.parameters p hp)
  · exact fieldOk_ptr rfl rfl (fun _ => ⟨_, rfl⟩) fun b hb => good_bodyOrRef hS (h.body b hb)
  · exact good_named rfl (good_responses hS (fun _ h => h) h)
  · exact fieldOk_bool rfl rfl
  · exact fieldOk_list rfl rfl fun p _ => good_security p
  · exact patOk_map h.extKeys fun k b hb => ⟨pat_x (h.ext k b hb), good_any rfl⟩

/-! ### Security schemes -/

theorem good_http {l : List (String × Val)} (hl : semi V30.sHTTPSecurityScheme (l.map Prod.fst) = true)
    (hg : Given30 N V30.sHTTPSecurityScheme l) (hm : GoMap.get? l "MapOfAnything" = none)
    (hs : (GoMap.get? l "Scheme" = some (.str "bearer")) ∨
      (GoMap.get? l "Scheme" = some (.str "basic") ∧ GoMap.get? l "BearerFormat" = none)) :
    Good N (.named "HTTPSecurityScheme") (fill V30.sHTTPSecurityScheme l) := by
  have hn : GoMap.get? V30.table "HTTPSecurityScheme" = some (.struct V30.sHTTPSecurityScheme) := by kernel_rfl
  refine good_semi hn hl hg ?_
  generalize hv : (fun go => (GoMap.get? l go).getD .nil) = val
  have hval : ∀ go, val go = (GoMap.get? l go).getD .nil := by intro go; rw [← hv]
  obtain ⟨hf, hp, hdv⟩ := semi_facts hl hg hval
  show Wri N _ (Spec.structOf V30.sHTTPSecurityScheme _)
  rw [hv]
  have e1 : val "MapOfAnything" = .nil := by rw [hval, hm]; rfl
  refine .http hn val (fun f hfm => (hf f hfm).writable) (by rw [e1]; exact .nilMap _) (by rw [e1]; intro k hk; cases hk) ?_
  have b1 : val "Bearer" = .nil := hdv _ (by simp [derived])
  have b2 : val "NonBearer" = .nil := hdv _ (by simp [derived])
  rcases hs with e | ⟨e, e'⟩
  · exact .inl ⟨by rw [hval, e]; rfl, .inl b1, b2⟩
  · exact .inr ⟨by rw [hval, e]; simp, by rw [hval, e']; rfl, b1, .inl b2⟩

theorem good_schemeAlt {go : String} {t : Ty} {v : Val} (ho : ⟨go, .ptr t⟩ ∈ V30.sSecurityScheme.oneOf)
    (hu : V30.sSecurityScheme.oneOf.all (fun h => h.go != go || h.ty == .ptr t) = true)
    (he : fill V30.sSecurityScheme [(go, v)] =
      .struct (V30.sSecurityScheme.oneOf.map (fun h => (h.go, if h.go = go then v else .nil))))
    (ht : notPtr t = true) (hv : ∃ fs, v = .struct fs) (h : Good N t v) :
    Good N (.named "SecurityScheme") (fill V30.sSecurityScheme [(go, v)]) := by
  obtain ⟨fs, rfl⟩ := hv
  rw [he]
  exact good_alt (by kernel_rfl) rfl (by decide) ho hu (by simp) (good_ptr ht (by simp) (by simp) h)

theorem good_scheme {s : V30.SecScheme} (h : ∀ n i t, s = .apiKey n i t → i ∈ ["header", "query", "cookie"]) :
    Good N (.named "SecuritySchemeOrRef") (schemeVal s) := by
  have key : ∀ v, (∃ fs, v = .struct fs) → Good N (.named "SecurityScheme") v →
      Good N (.named "SecuritySchemeOrRef") (fill V30.sSecuritySchemeOrRef [("SecurityScheme", v)]) := by
    intro v hv h
    obtain ⟨fs, rfl⟩ := hv
    exact good_alt (n := "SecuritySchemeOrRef") (s := V30.sSecuritySchemeOrRef) (go := "SecurityScheme")
      (t := .named "SecurityScheme") (by kernel_rfl) rfl (by decide) (by simp [V30.sSecuritySchemeOrRef]) (by decide)
      (by simp) (good_ptr rfl (by simp) (by simp) h)
  have str : ∀ d : String, Good N (.ptr .str) (.str d) := fun d => good_ptr rfl (by simp) (by simp) (good_str d)
  cases s with
  | basic d =>
    refine key _ ⟨_, rfl⟩ (good_schemeAlt (t := .named "HTTPSecurityScheme") (by simp [V30.sSecurityScheme]) (by decide) rfl rfl
      ⟨_, rfl⟩ (good_http (by rfl) ⟨?_, ?_, trivial⟩ rfl (.inr ⟨rfl, rfl⟩)))
    · exact good_named rfl (good_str _)
    · exact good_named rfl (str _)
  | bearer f d =>
    refine key _ ⟨_, rfl⟩ (good_schemeAlt (t := .named "HTTPSecurityScheme") (by simp [V30.sSecurityScheme]) (by decide) rfl rfl
      ⟨_, rfl⟩ (good_http (by rfl) ⟨?_, ?_, ?_, trivial⟩ rfl (.inl rfl)))
    · exact good_named rfl (good_str _)
    · exact fieldOk_str rfl rfl
    · exact good_named rfl (str _)
  | apiKey n i d =>
    refine key _ ⟨_, rfl⟩ (good_schemeAlt (t := .named "APIKeySecurityScheme") (by simp [V30.sSecurityScheme]) (by decide) rfl rfl
      ⟨_, rfl⟩ (good_fill (by kernel_rfl) (by rfl) ⟨?_, ?_, ?_, trivial⟩))
    · exact good_named rfl (good_str _)
    · exact good_named rfl (good_enum (by kernel_rfl) (h _ _ _ rfl))
    · exact good_named rfl (str _)

/-! ### The document -/

theorem good_doc (hF : IntsFloat N) (hS : SchemaVals N Sc sv) {d : V30.Spec S} (h : Published (Always Sc) d) :
    Good N (.named "Spec") (docVal sv d) := by
  refine good_fill (by kernel_rfl) (by rfl) ⟨?_, ?_, ?_, ?_, trivial⟩
  · exact good_named rfl (good_str _)
  · refine good_named rfl (good_fill (n := "Info") (by kernel_rfl) (by rfl) ⟨?_, ?_, ?_, trivial⟩)
    · exact good_named rfl (good_str _)
    · exact fieldOk_str rfl rfl
    · exact good_named rfl (good_str _)
  · refine good_named rfl (good_fill (n := "Paths") (by kernel_rfl) (by rfl) ⟨?_, trivial⟩)
    refine patOk_map h.pathKeys fun k p hp => ⟨pat_slash (h.paths k p hp).1, ?_⟩
    obtain ⟨_, h2, h3, h4⟩ := h.paths k p hp
    refine good_fill (n := "PathItem") (by kernel_rfl) (by rfl) ⟨?_, ?_, ?_, trivial⟩
    · exact fieldOk_str rfl rfl
    · exact fieldOk_list rfl rfl fun p hp => good_paramOrRef hF hS (h3 p hp)
    · exact patOk_map h2 fun m op hm => ⟨List.contains_iff_mem.2 (h4 m op hm).1, good_operation hF hS (h4 m op hm).2⟩
  · show FieldOk N _ (if d.schemas = [] ∧ d.security = [] then .nil else _)
    split
    · exact fieldOk_nil rfl
    · refine good_named rfl (good_ptr (t := .named "Components") rfl (by intro e; cases e) (by intro e; cases e)
        (good_fill (by kernel_rfl) (by rfl) ⟨?_, ?_, trivial⟩))
      · show FieldOk N _ (mapStruct _ _ _ d.schemas)
        cases hd : d.schemas with
        | nil => exact fieldOk_nil rfl
        | cons p l =>
          refine good_named rfl (good_ptr (t := .named "ComponentsSchemas") rfl (by intro e; cases e) (by intro e; cases e)
            (good_fill (by kernel_rfl) (by rfl) ⟨?_, trivial⟩))
          show PatOk N _ (mapVal sv (p :: l))
          rw [← hd]
          exact patOk_map h.schemaKeys fun k s hs => ⟨pat_name (h.schemas k s hs).1, hS.good s (h.schemas k s hs).2⟩
      · show FieldOk N _ (mapStruct _ _ _ d.security)
        cases hd : d.security with
        | nil => exact fieldOk_nil rfl
        | cons p l =>
          refine good_named rfl (good_ptr (t := .named "ComponentsSecuritySchemes") rfl (by intro e; cases e)
            (by intro e; cases e) (good_fill (by kernel_rfl) (by rfl) ⟨?_, trivial⟩))
          show PatOk N _ (mapVal schemeVal (p :: l))
          rw [← hd]
          exact patOk_map h.securityKeys fun k s hs => ⟨pat_name (h.security k s hs).1, good_scheme (h.security k s hs).2⟩

end

end Verif.Pub30
