import Verif.Spec.Publish31
import Verif.Props.RoundTrip
import Verif.Lemmas.Publish30
import Verif.Lemmas.Meta31Facts

/-! Structs of 3.1 that can be written, and the members of their JSON. -/

namespace Verif.Pub31
open Codec Spec Conform
open Pub30 (fill opt mapVal listVal refOrVal nilable get?_none_iff get?_some_of keysOf_mapVal)

abbrev T := V31.table

variable {N : Nums}

abbrev Wri (N : Nums) (ty : Ty) (v : Val) : Prop := Writable T N ok31 ty v

theorem wri_encode {ty : Ty} {v : Val} (h : Wri N ty v) : encode T ty v = some (enc T ty v) :=
  enc_some (writable_good (facts31 N) h).rt.writes

/-- A value that can be written, and what is written for it. -/
structure Good (N : Nums) (P : Any → Prop) (ty : Ty) (v : Val) : Prop where
  writable : Wri N ty v
  valid : P (enc T ty v)

/-- The value of a field: it can be written, and what is written if it is not left out. -/
structure FieldOk (N : Nums) (P : String → Any → Prop) (f : Field) (v : Val) : Prop where
  writable : Wri N f.ty v
  valid : omitted f v = false → P f.key (enc T f.ty v)

/-- The value of a map of patterned keys. -/
structure PatOk (N : Nums) (P : String → Any → Prop) (q : PatField) (v : Val) : Prop where
  writable : Wri N (.map q.ty) v
  keys : ∀ k ∈ keysOf v, q.pat.matches k = true
  valid : ∀ p ∈ entries v, P p.1 (enc T q.ty p.2)

/-- What is asked of the fields that are given. -/
def Given (N : Nums) (P : String → Any → Prop) (s : Codec.Struct) : List (String × Val) → Prop
  | [] => True
  | (go, v) :: l => (match s.fields.find? (·.go == go) with
      | some f => FieldOk N P f v
      | none => match s.patterns.find? (·.go == go) with
        | some q => PatOk N P q v
        | none => False) ∧ Given N P s l

/-- The others may be nil, and nothing else is asked. -/
def simple (n : String) (s : Codec.Struct) (gos : List String) : Bool :=
  s.embeds.isEmpty && s.oneOf.isEmpty && n != "NonBearer" && s.additional.isNone &&
    s.nots.isEmpty && s.fields.all (fun f => gos.contains f.go || nilable f) &&
    s.fields.all (fun f => s.fields.find? (·.go == f.go) == some f) &&
    s.patterns.all (fun q => s.patterns.find? (·.go == q.go) == some q && !(s.fields.map (·.go)).contains q.go)

theorem given_get {P : String → Any → Prop} {s : Codec.Struct} {l : List (String × Val)} (h : Given N P s l) {go : String}
    {v : Val} (hg : GoMap.get? l go = some v) : match s.fields.find? (·.go == go) with
      | some f => FieldOk N P f v
      | none => match s.patterns.find? (·.go == go) with
        | some q => PatOk N P q v
        | none => False := by
  induction l with
  | nil => cases hg
  | cons p l ih =>
    obtain ⟨k, x⟩ := p
    simp only [GoMap.get?] at hg
    split at hg
    · rename_i e
      subst e
      cases hg
      exact h.1
    · exact ih h.2 hg

theorem nil_field {P : String → Any → Prop} {f : Field} (h : nilable f = true) : FieldOk N P f .nil := by
  unfold nilable at h
  rw [Bool.and_eq_true] at h
  obtain ⟨ho, ht⟩ := h
  refine ⟨?_, ?_⟩
  · split at ht
    · rename_i e; rw [e]; exact .nilPtr _
    · rename_i e; rw [e]; exact .nilSlice _
    · rename_i e; rw [e]; exact .nilMap _
    · cases ht
  · intro h
    exfalso
    unfold omitted at h
    rw [ho, Bool.true_and] at h
    split at ht
    · rename_i e; rw [e] at h; cases h
    · rename_i e; rw [e] at h; cases h
    · rename_i e; rw [e] at h; cases h
    · cases ht

/-- The JSON of a struct: an object with these members. -/
structure Filled (N : Nums) (P : String → Any → Prop) (n : String) (s : Codec.Struct) (l : List (String × Val))
    (M : List (String × Any)) : Prop where
  writable : Wri N (.named n) (fill s l)
  json : enc T (.named n) (fill s l) = .obj M
  members : ∀ k x, (k, x) ∈ M → k ∈ s.consts.map Prod.fst ∧ (∃ c ∈ s.consts, k = c.1 ∧ x = c.2.json) ∨ P k x
  consts : ∀ c ∈ s.consts, (c.1, c.2.json) ∈ M
  fields : ∀ f ∈ s.fields, omitted f ((GoMap.get? l f.go).getD .nil) = false → ∃ x, (f.key, x) ∈ M
  patterns : ∀ q ∈ s.patterns, ∀ p ∈ entries ((GoMap.get? l q.go).getD .nil), ∃ x, (p.1, x) ∈ M

theorem filled {P : String → Any → Prop} {n : String} {s : Codec.Struct} (hn : GoMap.get? T n = some (.struct s))
    {l : List (String × Val)} (hc : simple n s (l.map Prod.fst) = true) (h : Given N P s l)
    (hone : ∀ a b, s.exactlyOne = some (a, b) →
      (Omitted s (fun go => (GoMap.get? l go).getD .nil) a ∧ Written s (fun go => (GoMap.get? l go).getD .nil) b) ∨
      (Written s (fun go => (GoMap.get? l go).getD .nil) a ∧ Omitted s (fun go => (GoMap.get? l go).getD .nil) b))
    (hlow : ∀ c ∈ s.lower, ∃ t, (GoMap.get? l c.go).getD .nil = .str t ∧ (goToLower t == c.value) = c.mustBe) :
    ∃ M, Filled N P n s l M := by
  simp only [simple, Bool.and_eq_true, List.isEmpty_iff, bne_iff_ne, Option.isNone_iff_eq_none, List.all_eq_true,
    beq_iff_eq, Bool.or_eq_true, Bool.not_eq_true'] at hc
  obtain ⟨⟨⟨⟨⟨⟨⟨c1, c2⟩, c3⟩, c4⟩, c7⟩, c8⟩, c11⟩, c12⟩ := hc
  generalize hv : (fun go => (GoMap.get? l go).getD .nil) = val
  rw [hv] at hone
  have hval : ∀ go, val go = (GoMap.get? l go).getD .nil := by intro go; rw [← hv]
  have hf : ∀ f ∈ s.fields, FieldOk N P f (val f.go) := by
    intro f hf
    rw [hval]
    cases hb : (l.map Prod.fst).contains f.go with
    | true =>
      obtain ⟨v, e⟩ := get?_some_of hb
      have := given_get h e
      rw [c11 f hf] at this
      rw [e]
      exact this
    | false =>
      rw [get?_none_iff hb]
      rcases c8 f hf with h' | h'
      · rw [hb] at h'; cases h'
      · exact nil_field h'
  have hp : ∀ q ∈ s.patterns, PatOk N P q (val q.go) := by
    intro q hq
    rw [hval]
    cases hb : (l.map Prod.fst).contains q.go with
    | true =>
      obtain ⟨v, e⟩ := get?_some_of hb
      have := given_get h e
      have hnf : s.fields.find? (·.go == q.go) = none := by
        rw [List.find?_eq_none]
        intro f hf he
        rw [beq_iff_eq] at he
        have h2 := (c12 q hq).2
        rw [List.contains_iff_mem.2 (List.mem_map.2 ⟨f, hf, he⟩)] at h2
        cases h2
      rw [hnf, (c12 q hq).1] at this
      rw [e]
      exact this
    | false =>
      rw [get?_none_iff hb]
      exact ⟨.nilMap _, (by intro k hk; cases hk), (by intro p hp; cases hp)⟩
  have hw : Wri N (.named n) (fill s l) := by
    show Wri N (.named n) (structOf s _)
    rw [hv]
    refine .plain hn ⟨c1, c2⟩ c3 val (fun f hfm _ => (hf f hfm).writable) (fun q hq => (hp q hq).writable)
      (fun q hq => (hp q hq).keys) ?_ ?_ hone ?_ ?_
    · intro a ha; rw [c4] at ha; cases ha
    · intro a ha; rw [c4] at ha; cases ha
    · intro c hc; rw [hval]; exact hlow c hc
    · intro t ht; rw [c7] at ht; cases ht
  have hd := (writable_good (facts31 N) hw).deep s hn
  obtain ⟨val', e', hb, hpv⟩ := hd.1 ⟨c1, c2⟩
  have hgo : ∀ go ∈ s.names, val' go = val go := by
    intro go hgo
    have e2 : structOf s val = structOf s val' := by rw [← e', ← hv]; rfl
    unfold structOf at e2
    injection e2 with e2
    have := List.map_inj_left.1 e2 go hgo
    injection this with _ this
    exact this.symm
  have hfn : ∀ f ∈ s.fields, val' f.go = val f.go := by
    intro f hf
    apply hgo
    unfold Codec.Struct.names
    simp only [List.mem_append, List.mem_map]
    exact .inl (.inl (.inl (.inl ⟨f, hf, rfl⟩)))
  have hpn : ∀ q ∈ s.patterns, val' q.go = val q.go := by
    intro q hq
    apply hgo
    unfold Codec.Struct.names
    simp only [List.mem_append, List.mem_map]
    exact .inl (.inr ⟨q, hq, rfl⟩)
  refine ⟨membersFor T s val' [], hw, ?_, ?_, ?_, ?_, ?_⟩
  · rw [e']
    exact enc_of (encode_plainVal hn hb hpv)
  · intro k x hx
    unfold membersFor at hx
    simp only [List.append_nil, List.mem_append] at hx
    rcases hx with ((hx | hx) | hx) | hx
    · obtain ⟨c, hc, e⟩ := List.mem_map.1 hx
      cases e
      exact .inl ⟨List.mem_map.2 ⟨c, hc, rfl⟩, c, hc, rfl, rfl⟩
    · obtain ⟨f, hfm, ho, e⟩ := mem_fieldMembers.1 hx
      cases e
      rw [hfn f hfm] at ho ⊢
      exact .inr ((hf f hfm).valid ho)
    · obtain ⟨q, hq, hx⟩ := List.mem_flatMap.1 hx
      unfold mapMembers at hx
      obtain ⟨p, hpm, e⟩ := List.mem_map.1 hx
      cases e
      rw [hpn q hq] at hpm
      exact .inr ((hp q hq).valid p hpm)
    · unfold addMembers at hx
      rw [c4] at hx
      cases hx
  · intro c hc
    exact const_key hc
  · intro f hfm ho
    rw [← hval, ← hfn f hfm] at ho
    exact ⟨_, List.mem_append_left _ (List.mem_append_left _ (List.mem_append_left _ (List.mem_append_right _
      (mem_fieldMembers.2 ⟨f, hfm, ho, rfl⟩))))⟩
  · intro q hq p hpm
    rw [← hval, ← hpn q hq] at hpm
    refine ⟨enc T q.ty p.2, List.mem_append_left _ (List.mem_append_left _ (List.mem_append_right _ ?_))⟩
    exact List.mem_flatMap.2 ⟨q, hq, List.mem_map.2 ⟨p, hpm, rfl⟩⟩

/-- Without conditions on several fields. -/
theorem filled' {P : String → Any → Prop} {n : String} {s : Codec.Struct} (hn : GoMap.get? T n = some (.struct s))
    {l : List (String × Val)} (hc : (simple n s (l.map Prod.fst) && s.exactlyOne.isNone && s.lower.isEmpty) = true)
    (h : Given N P s l) : ∃ M, Filled N P n s l M := by
  simp only [Bool.and_eq_true, List.isEmpty_iff, Option.isNone_iff_eq_none] at hc
  refine filled hn hc.1.1 h ?_ ?_
  · intro a b e; rw [hc.1.2] at e; cases e
  · intro c hm; rw [hc.2] at hm; cases hm

/-! ## Plain values -/

theorem good_str (s : String) {P : Any → Prop} (h : P (.str s)) : Good N P .str (.str s) := ⟨.str s, h⟩
theorem good_bool (b : Bool) {P : Any → Prop} (h : P (.bool b)) : Good N P .bool (.bool b) := ⟨.bool b, h⟩

theorem good_any {a : Any} {P : Any → Prop} (h : decodeAny N a = some a) (hp : P a) : Good N P .any (.any a) := ⟨.any h, hp⟩

theorem good_enum {n : String} {vs : List String} (hn : GoMap.get? T n = some (.enum vs)) {s : String} (h : s ∈ vs)
    {P : Any → Prop} (hp : P (.str s)) : Good N P (.named n) (.str s) := by
  refine ⟨.enum hn h, ?_⟩
  have : encode T (.named n) (.str s) = some (.str s) := by
    rw [encode_enum hn, if_pos (List.contains_iff_mem.2 h)]
  rw [enc_of this]
  exact hp

theorem good_ptr {t : Ty} {v : Val} {P : Any → Prop} (ht : notPtr t = true) (h1 : v ≠ .nil) (h2 : v ≠ .any .null)
    (h : Good N P t v) : Good N P (.ptr t) v := by
  refine ⟨.ptr ht h1 h2 h.writable, ?_⟩
  unfold enc
  rw [encode_ptr _ h1]
  exact h.valid

theorem good_slice {t : Ty} {vs : List Val} {P : Any → Prop} (h : ∀ v ∈ vs, Good N P t v) :
    Good N (fun j => ∃ xs, j = .arr xs ∧ ∀ x ∈ xs, P x) (.slice t) (.list vs) := by
  have hw : Wri N (.slice t) (.list vs) := .slice fun v hv => (h v hv).writable
  refine ⟨hw, vs.map (enc T t), ?_, List.forall_mem_map.2 fun v hv => (h v hv).valid⟩
  apply enc_of
  rw [encode_slice, mapAll_some_of (g := enc T t)]
  · rfl
  · intro v hv
    exact wri_encode (h v hv).writable

theorem good_map {t : Ty} {ms : List (String × Val)} {P : String → Any → Prop} (hk : (ms.map Prod.fst).Nodup)
    (h : ∀ k v, (k, v) ∈ ms → Good N (P k) t v) :
    Good N (fun j => ∃ M, j = .obj M ∧ M.map Prod.fst = ms.map Prod.fst ∧ ∀ k x, (k, x) ∈ M → P k x) (.map t) (.map ms) := by
  have hw : Wri N (.map t) (.map ms) := .map hk fun k v hv => (h k v hv).writable
  refine ⟨hw, ms.map (fun p => (p.1, enc T t p.2)), ?_, by rw [List.map_map]; rfl, ?_⟩
  · apply enc_of
    rw [encode_map, mapAll_some_of (g := fun p => (p.1, enc T t p.2))]
    · rfl
    · intro p hp
      rw [wri_encode (h p.1 p.2 hp).writable]
      rfl
  · intro k x hx
    obtain ⟨p, hp, e⟩ := List.mem_map.1 hx
    cases e
    exact (h p.1 p.2 hp).valid

/-! ## Fields -/

variable {P : String → Any → Prop}

theorem Good.field {f : Field} {v : Val} (h : Good N (P f.key) f.ty v) : FieldOk N P f v := ⟨h.writable, fun _ => h.valid⟩

theorem field_of {f : Field} {t : Ty} {v : Val} {Q : Any → Prop} (ht : f.ty = t) (h : Good N Q t v)
    (hq : ∀ j, Q j → P f.key j) : FieldOk N P f v := by
  subst ht; exact ⟨h.writable, fun _ => hq _ h.valid⟩

theorem field_opt {A : Type} {f : Field} {g : A → Val} {o : Option A} (hf : nilable f = true)
    (h : ∀ a, o = some a → Good N (P f.key) f.ty (g a)) : FieldOk N P f (opt g o) := by
  cases o with
  | none => exact nil_field hf
  | some a => exact (h a rfl).field

theorem field_str {f : Field} {o : Option String} (hf : nilable f = true) (ht : f.ty = .ptr .str)
    (h : ∀ s, o = some s → P f.key (.str s)) : FieldOk N P f (opt .str o) :=
  field_opt hf fun a ha => by rw [ht]; exact good_ptr rfl (by simp) (by simp) (good_str a (h a ha))

theorem field_bool {f : Field} {o : Option Bool} (hf : nilable f = true) (ht : f.ty = .ptr .bool)
    (h : ∀ s, o = some s → P f.key (.bool s)) : FieldOk N P f (opt .bool o) :=
  field_opt hf fun a ha => by rw [ht]; exact good_ptr rfl (by simp) (by simp) (good_bool a (h a ha))

theorem field_ptr {A : Type} {f : Field} {n : String} {g : A → Val} {o : Option A} {Q : Any → Prop} (hf : nilable f = true)
    (ht : f.ty = .ptr (.named n)) (hne : ∀ a, ∃ fs, g a = .struct fs) (h : ∀ a, o = some a → Good N Q (.named n) (g a))
    (hq : ∀ j, Q j → P f.key j) : FieldOk N P f (opt g o) := by
  refine field_opt hf fun a ha => ?_
  rw [ht]
  obtain ⟨fs, e⟩ := hne a
  have := good_ptr rfl (by rw [e]; simp) (by rw [e]; simp) (h a ha)
  exact ⟨this.writable, hq _ this.valid⟩

theorem field_list {A : Type} {f : Field} {t : Ty} {g : A → Val} {l : List A} {Q : Any → Prop} (hf : nilable f = true)
    (ht : f.ty = .slice t) (h : ∀ a ∈ l, Good N Q t (g a)) (hq : ∀ xs, (∀ x ∈ xs, Q x) → P f.key (.arr xs)) :
    FieldOk N P f (listVal g l) := by
  cases l with
  | nil => exact nil_field hf
  | cons a l =>
    have := good_slice (List.forall_mem_map.2 h)
    refine ⟨by rw [ht]; exact this.writable, fun _ => ?_⟩
    obtain ⟨xs, e, hx⟩ := this.valid
    rw [ht]
    show P f.key (enc T (.slice t) (.list _))
    rw [e]
    exact hq xs hx

theorem good_mapVal {A : Type} {t : Ty} {g : A → Val} {m : GoMap A} {Q : String → Any → Prop} (hm : m ≠ []) (hk : Keys m)
    (h : ∀ k a, (k, a) ∈ m → Good N (Q k) t (g a)) :
    Good N (fun j => ∃ M, j = .obj M ∧ M.map Prod.fst = m.map Prod.fst ∧ ∀ k x, (k, x) ∈ M → Q k x) (.map t) (Pub30.mapVal g m) := by
  cases m with
  | nil => exact absurd rfl hm
  | cons p m =>
    have := good_map (N := N) (t := t) (ms := (p :: m).map (fun p => (p.1, g p.2))) (P := Q) ?_ ?_
    · rw [List.map_map] at this
      exact this
    · unfold Keys at hk
      rw [List.map_map]
      exact hk
    · intro k v hv
      obtain ⟨⟨k', a⟩, ha, e⟩ := List.mem_map.1 hv
      cases e
      exact h _ a ha

theorem field_map {A : Type} {f : Field} {t : Ty} {g : A → Val} {m : GoMap A} {Q : String → Any → Prop} (hf : nilable f = true)
    (ht : f.ty = .map t) (hk : Keys m) (h : ∀ k a, (k, a) ∈ m → Good N (Q k) t (g a))
    (hq : ∀ M, m ≠ [] → M.map Prod.fst = m.map Prod.fst → (∀ k x, (k, x) ∈ M → Q k x) → P f.key (.obj M)) :
    FieldOk N P f (Pub30.mapVal g m) := by
  by_cases hm : m = []
  · subst hm; exact nil_field hf
  · have := good_mapVal hm hk h
    refine ⟨by rw [ht]; exact this.writable, fun _ => ?_⟩
    obtain ⟨M, e, hx⟩ := this.valid
    rw [ht, e]
    exact hq M hm hx.1 hx.2

theorem entries_mapVal {A : Type} {g : A → Val} {m : GoMap A} {p : String × Val} (h : p ∈ entries (Pub30.mapVal g m)) :
    ∃ a, (p.1, a) ∈ m ∧ p.2 = g a := by
  cases m with
  | nil => cases h
  | cons q m =>
    obtain ⟨⟨k', a⟩, ha, rfl⟩ := List.mem_map.1 (show p ∈ (q :: m).map (fun p => (p.1, g p.2)) from h)
    exact ⟨a, ha, rfl⟩

theorem mem_entries {A : Type} {g : A → Val} {m : GoMap A} {k : String} {a : A} (h : (k, a) ∈ m) :
    (k, g a) ∈ entries (Pub30.mapVal g m) := by
  cases m with
  | nil => cases h
  | cons q m => exact List.mem_map.2 ⟨(k, a), h, rfl⟩

theorem pat_map {A : Type} {q : PatField} {g : A → Val} {m : GoMap A} (hk : Keys m)
    (h : ∀ k a, (k, a) ∈ m → q.pat.matches k = true ∧ Good N (P k) q.ty (g a)) : PatOk N P q (Pub30.mapVal g m) := by
  refine ⟨?_, ?_, ?_⟩
  · by_cases hm : m = []
    · subst hm; exact .nilMap _
    · exact (good_mapVal hm hk fun k a ha => (h k a ha).2).writable
  · intro k hk
    obtain ⟨a, ha⟩ := keysOf_mapVal hk
    exact (h k a ha).1
  · intro p hp
    obtain ⟨a, ha, e⟩ := entries_mapVal hp
    rw [e]
    exact (h _ a ha).2.valid

/-! ## Alternatives -/

theorem good_alt {n : String} {s : Codec.Struct} (hn : GoMap.get? T n = some (.struct s))
    (hs : s = { oneOf := s.oneOf, parts := s.oneOf.map (fun h => .hidden h.go) }) (hc : unionCheckTy s = true)
    {go : String} {t : Ty} {v : Val} {Q : Any → Prop} (ho : ⟨go, .ptr t⟩ ∈ s.oneOf) (hv : v ≠ .nil) (hv' : v ≠ .any .null)
    (hok : ok31 n go v) (h : Good N Q (.ptr t) v) :
    Good N Q (.named n) (.struct (s.oneOf.map (fun h => (h.go, if h.go = go then v else .nil)))) := by
  have hw := Writable.union (T := T) (N := N) (Ok := ok31) hn hs ho hv h.writable hok
  refine ⟨hw, ?_⟩
  have hj := wri_encode h.writable
  have hnn : enc T (.ptr t) v ≠ .null := by
    intro e
    rw [e] at hj
    rcases (writable_good (facts31 N) h.writable).null hj with e | e
    · exact hv e
    · exact hv' e
  rw [enc_of (encode_union hn hs hc ho hj hnn)]
  exact h.valid

end Verif.Pub31
