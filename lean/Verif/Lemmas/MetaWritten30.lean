import Verif.Lemmas.MetaSound30
import Verif.Lemmas.MetaMeaning

/-! What is written makes no use of what the code accepts beyond the meta-schema. -/

namespace Verif.Meta
open Codec Spec

variable {T : Table} {N : Nums}

/-! ## Number literals -/

theorem literals_obj {ms : List (String × Any)} {l : String} :
    l ∈ literals (.obj ms) ↔ ∃ k x, (k, x) ∈ ms ∧ l ∈ literals x := by
  constructor
  · intro h
    rw [literals] at h
    induction ms with
    | nil => cases h
    | cons p ms ih =>
      obtain ⟨k, x⟩ := p
      rw [literalsMembers, List.mem_append] at h
      rcases h with h | h
      · exact ⟨k, x, List.mem_cons_self, h⟩
      · obtain ⟨k', x', hx, hl⟩ := ih h
        exact ⟨k', x', List.mem_cons_of_mem _ hx, hl⟩
  · rintro ⟨k, x, hx, hl⟩
    exact literals_member hx l hl

theorem literals_arr {xs : List Any} {l : String} : l ∈ literals (.arr xs) ↔ ∃ x ∈ xs, l ∈ literals x := by
  constructor
  · intro h
    rw [literals] at h
    induction xs with
    | nil => cases h
    | cons x ms ih =>
      rw [literalsList, List.mem_append] at h
      rcases h with h | h
      · exact ⟨x, List.mem_cons_self, h⟩
      · obtain ⟨x', hx, hl⟩ := ih h
        exact ⟨x', List.mem_cons_of_mem _ hx, hl⟩
  · rintro ⟨x, hx, hl⟩
    exact literals_elem hx l hl

mutual
theorem decodeAny_floats : ∀ {a : Any} {b : Any}, decodeAny N a = some b → Floats N a
  | .null, _, _ => by intro l hl; cases hl
  | .bool _, _, _ => by intro l hl; cases hl
  | .str _, _, _ => by intro l hl; cases hl
  | .num x, _, h => by
    intro l hl
    rw [literals, List.mem_singleton] at hl
    subst hl
    intro e
    rw [decodeAny, e] at h
    cases h
  | .arr xs, _, h => by
    simp only [decodeAny] at h
    rw [Option.map_eq_some_iff] at h
    obtain ⟨ys, hy, _⟩ := h
    intro l hl
    obtain ⟨x, hx, hl⟩ := literals_arr.1 hl
    exact decodeAnys_floats hy x hx l hl
  | .obj ms, _, h => by
    simp only [decodeAny] at h
    rw [Option.map_eq_some_iff] at h
    obtain ⟨ys, hy, _⟩ := h
    intro l hl
    obtain ⟨k, x, hx, hl⟩ := literals_obj.1 hl
    exact decodeAnyMembers_floats hy (k, x) hx l hl
theorem decodeAnys_floats : ∀ {xs ys : List Any}, decodeAnys N xs = some ys → ∀ x ∈ xs, Floats N x
  | [], _, _ => by intro x hx; cases hx
  | x :: xs, _, h => by
    simp only [decodeAnys] at h
    split at h
    · rename_i y zs hy hz
      have h1 := decodeAny_floats hy
      intro x' hx'
      rcases List.mem_cons.1 hx' with rfl | hx'
      · exact h1
      · exact decodeAnys_floats hz x' hx'
    · cases h
theorem decodeAnyMembers_floats : ∀ {xs ys : List (String × Any)}, decodeAnyMembers N xs = some ys →
    ∀ p ∈ xs, Floats N p.2
  | [], _, _ => by intro x hx; cases hx
  | (k, x) :: xs, _, h => by
    simp only [decodeAnyMembers] at h
    split at h
    · rename_i y zs hy hz
      have h1 := decodeAny_floats hy
      intro x' hx'
      rcases List.mem_cons.1 hx' with rfl | hx'
      · exact h1
      · exact decodeAnyMembers_floats hz x' hx'
    · cases h
end

theorem floats_null : Floats N .null := by intro l hl; cases hl

/-! ## What is read from what was written -/

/-- What is asked of everything that is read. -/
structure Fine (T : Table) (t : Ty) (x : Any) : Prop where
  null : x = .null → t = .any ∨ t = .ptr .any
  object : ∀ n s, t = .named n → GoMap.get? T n = some (.struct s) → s.decodes = false → s.oneOf = [] → ∃ ms, x = .obj ms
  lists : ∀ ms, t = .named "Schema" → x = .obj ms → ∀ k ∈ ["required", "enum"], (k, .arr []) ∉ ms

theorem regular_of_fine {alt : Ty → Any → Prop} {ty : Ty} {j : Any} (h : ∀ t x, Reads T alt ty j t x → Fine T t x) :
    Regular T alt ty j :=
  ⟨fun t ht => (h t _ ht).null rfl, fun n s x hx hn => (h _ x hx).object n s rfl hn, fun ms hm => (h _ _ hm).lists ms rfl rfl⟩

theorem mem_membersFor {s : Struct} {val : String → Val} {k : String} {y : Any} (hm : (k, y) ∈ membersFor T s val []) :
    (k ∈ s.consts.map Prod.fst) ∨ (∃ f ∈ s.fields, omitted f (val f.go) = false ∧ (k, y) = (f.key, enc T f.ty (val f.go))) ∨
    (∃ q ∈ s.patterns, (k, y) ∈ mapMembers T q.ty (val q.go)) ∨
    (∃ a, s.additional = some a ∧ (k, y) ∈ mapMembers T a.ty (val a.go)) := by
  unfold membersFor at hm
  simp only [List.append_nil, List.mem_append] at hm
  rcases hm with ((hm | hm) | hm) | hm
  · unfold constMembers at hm
    obtain ⟨c, hc, e⟩ := List.mem_map.1 hm
    cases e
    exact .inl (List.mem_map.2 ⟨c, hc, rfl⟩)
  · exact .inr (.inl (mem_fieldMembers.1 hm))
  · obtain ⟨q, hq, hm⟩ := List.mem_flatMap.1 hm
    exact .inr (.inr (.inl ⟨q, hq, hm⟩))
  · unfold addMembers at hm
    split at hm
    · rename_i a ha
      exact .inr (.inr (.inr ⟨a, ha, hm⟩))
    · cases hm

/-- What is read from the members of a struct without alternatives. -/
theorem reads_members {n : String} {s : Struct} (hn : GoMap.get? T n = some (.struct s)) (hb : Base s) {val : String → Val}
    (hpk : ∀ q ∈ s.patterns, ∀ k ∈ keysOf (val q.go), q.pat.matches k = true)
    (hak : ∀ a, s.additional = some a → ∀ k ∈ keysOf (val a.go), ∀ q ∈ s.patterns, q.pat.matches k = false)
    {alt : Ty → Any → Prop} {t : Ty} {x : Any}
    (h : Reads T alt (.named n) (.obj (membersFor T s val [])) t x)
    {P : Prop} (self : t = .named n → x = .obj (membersFor T s val []) → P)
    (field : ∀ f ∈ s.fields, omitted f (val f.go) = false → Reads T alt f.ty (enc T f.ty (val f.go)) t x → P)
    (pattern : ∀ q ∈ s.patterns, ∀ p ∈ entries (val q.go), Reads T alt q.ty (enc T q.ty p.2) t x → P)
    (add : ∀ a, s.additional = some a → ∀ p ∈ entries (val a.go), Reads T alt a.ty (enc T a.ty p.2) t x → P)
    (alternative : ∀ o ∈ s.oneOf, Reads T alt o.ty (.obj (membersFor T s val [])) t x → P) : P := by
  have mem := @mem_membersFor T s val
  have ent : ∀ {ty : Ty} {v : Val} {k : String} {y : Any}, (k, y) ∈ mapMembers T ty v → ∃ p ∈ entries v, y = enc T ty p.2 := by
    intro ty v k y hm
    unfold mapMembers at hm
    obtain ⟨p, hp, e⟩ := List.mem_map.1 hm
    cases e
    exact ⟨p, hp, rfl⟩
  cases h with
  | self => exact self rfl rfl
  | @field _ s' hn' f hf _ y _ _ hx hr =>
    rw [hn] at hn'
    cases hn'
    rcases mem hx with hm | ⟨g, hg, ho, e⟩ | ⟨q, hq, hm⟩ | ⟨a, ha, hm⟩
    · obtain ⟨c, hc, e⟩ := List.mem_map.1 hm
      have h1 := hb.consts c hc
      rw [e, hb.own f hf] at h1
      cases h1
    · simp only [Prod.mk.injEq] at e
      have := field_eq hb hf hg e.1
      subst this
      rw [e.2] at hr
      exact field f hf ho hr
    · have h1 := hb.patFields q hq _ (hpk q hq _ (mem_mapMembers hm))
      simp only [hb.own f hf] at h1
      cases h1
    · obtain ⟨h1, _, _⟩ := hb.additional (by rw [ha]; rfl)
      rw [h1] at hf
      cases hf
  | @pattern _ s' hn' q hq _ k y _ _ hk hx hr =>
    rw [hn] at hn'
    cases hn'
    rcases mem hx with hm | ⟨g, hg, ho, e⟩ | ⟨q', hq', hm⟩ | ⟨a, ha, hm⟩
    · have h1 := hb.patKept q hq k hk
      obtain ⟨c, hc, e⟩ := List.mem_map.1 hm
      have : (c.1, c.2.json) ∈ constMembers s := List.mem_map.2 ⟨c, hc, rfl⟩
      have := const_not_kept this
      rw [e, h1] at this
      cases this
    · simp only [Prod.mk.injEq] at e
      have h1 := hb.patFields q hq _ hk
      rw [e.1, hb.own g hg] at h1
      cases h1
    · by_cases he : q = q'
      · subst he
        obtain ⟨p, hp, rfl⟩ := ent hm
        exact pattern q hq p hp hr
      · have h1 := hb.patOther q hq q' hq' he k hk
        rw [hpk q' hq' k (mem_mapMembers hm)] at h1
        cases h1
    · have h1 := hak a ha k (mem_mapMembers hm) q hq
      rw [hk] at h1
      cases h1
  | @additional _ s' hn' a ha _ k y _ _ hk hx hr =>
    rw [hn] at hn'
    cases hn'
    obtain ⟨h1, h2, _⟩ := hb.additional (by rw [ha]; rfl)
    rcases mem hx with hm | ⟨g, hg, ho, e⟩ | ⟨q', hq', hm⟩ | ⟨a', ha', hm⟩
    · rw [h2] at hm; cases hm
    · rw [h1] at hg; cases hg
    · have h1 := hpk q' hq' k (mem_mapMembers hm)
      rw [hk q' hq'] at h1
      cases h1
    · rw [ha] at ha'
      cases ha'
      obtain ⟨p, hp, rfl⟩ := ent hm
      exact add a ha p hp hr
  | @alternative _ s' hn' o ho _ _ _ hc hr =>
    rw [hn] at hn'
    cases hn'
    exact alternative o ho hr

theorem floats_members {s : Struct} {val : String → Val}
    (hf : ∀ f ∈ s.fields, Floats N (enc T f.ty (val f.go)))
    (hp : ∀ q ∈ s.patterns, ∀ p ∈ entries (val q.go), Floats N (enc T q.ty p.2))
    (ha : ∀ a, s.additional = some a → ∀ p ∈ entries (val a.go), Floats N (enc T a.ty p.2)) :
    Floats N (.obj (membersFor T s val [])) := by
  intro l hl
  obtain ⟨k, y, hm, hl⟩ := literals_obj.1 hl
  unfold membersFor at hm
  simp only [List.append_nil, List.mem_append] at hm
  rcases hm with ((hm | hm) | hm) | hm
  · unfold constMembers at hm
    obtain ⟨c, hc, e⟩ := List.mem_map.1 hm
    simp only [Prod.mk.injEq] at e
    rw [← e.2] at hl
    cases h : c.2 <;> rw [h] at hl <;> cases hl
  · obtain ⟨f, hff, _, e⟩ := mem_fieldMembers.1 hm
    cases e
    exact hf f hff l hl
  · obtain ⟨q, hq, hm⟩ := List.mem_flatMap.1 hm
    unfold mapMembers at hm
    obtain ⟨p, hpp, e⟩ := List.mem_map.1 hm
    cases e
    exact hp q hq p hpp l hl
  · unfold addMembers at hm
    split at hm
    · rename_i a haa
      unfold mapMembers at hm
      obtain ⟨p, hpp, e⟩ := List.mem_map.1 hm
      cases e
      exact ha a haa p hpp l hl
    · cases hm

/-- The result of the induction. -/
structure Wr (T : Table) (N : Nums) (ty : Ty) (v : Val) : Prop where
  floats : Floats N (enc T ty v)
  fine : NoNulls T ty v → ∀ t x, Reads T (Can T N) ty (enc T ty v) t x → Fine T t x

theorem leaf_fine {ty t : Ty} {j x : Any} (h : Reads T (Can T N) ty j t x)
    (hl : (∀ n, ty ≠ .named n) ∧ (∀ s, ty ≠ .ptr s) ∧ (∀ s, ty ≠ .slice s) ∧ (∀ s, ty ≠ .map s))
    (hj : j = .null → ty = .any) : Fine T t x := by
  obtain ⟨h1, h2, h3, h4⟩ := hl
  cases h with
  | self => exact ⟨fun e => .inl (hj e), fun n _ e => absurd e (h1 n), fun _ e => absurd e (h1 _)⟩
  | ptr => exact absurd rfl (h2 _)
  | elem => exact absurd rfl (h3 _)
  | entry => exact absurd rfl (h4 _)
  | field => exact absurd rfl (h1 _)
  | pattern => exact absurd rfl (h1 _)
  | additional => exact absurd rfl (h1 _)
  | alternative => exact absurd rfl (h1 _)

theorem noNulls_of {ty ty' : Ty} {v v' : Val} (h : NoNulls T ty v) (hp : ∀ t x, PartOf T ty' v' t x → PartOf T ty v t x) :
    NoNulls T ty' v' := fun t ht => h t (hp _ _ ht)

theorem entries_part {t t' : Ty} {v : Val} {p : String × Val} (hp : p ∈ entries v) {v' : Val} (h : PartOf T t p.2 t' v') :
    v ≠ .nil ∧ PartOf T (.map t) v t' v' := by
  cases v with
  | map ms => exact ⟨by simp, .entry (k := p.1) hp h⟩
  | _ => cases hp

theorem enc_entries {t : Ty} {v : Val} (hw : MapGood T N t v) {p : String × Val} (hp : p ∈ entries v) :
    ∃ ms, enc T (.map t) v = .obj ms ∧ (p.1, enc T t p.2) ∈ ms := by
  rcases hw with rfl | ⟨es, rfl, h1, h2⟩
  · cases hp
  · have he : encode T (.map t) (.map es) = some (.obj (es.map (fun p => (p.1, enc T t p.2)))) := by
      rw [encode_map, mapAll_some_of (g := fun p => (p.1, enc T t p.2))]
      · rfl
      · intro p hp
        rw [enc_some (h2 p hp).writes]
        rfl
    exact ⟨_, enc_of he, List.mem_map.2 ⟨p, hp, rfl⟩⟩

theorem entries_floats {t : Ty} {v : Val} (hw : MapGood T N t v) (h : Wr T N (.map t) v) {p : String × Val} (hp : p ∈ entries v) :
    Floats N (enc T t p.2) := by
  obtain ⟨ms, e, hm⟩ := enc_entries hw hp
  have := h.floats
  rw [e] at this
  exact fun l hl => this l (literals_member hm l hl)

theorem entries_fine {t : Ty} {v : Val} (hw : MapGood T N t v) (h : Wr T N (.map t) v) {p : String × Val} (hp : p ∈ entries v)
    (hn : NoNulls T (.map t) v) {t' : Ty} {x : Any} (hr : Reads T (Can T N) t (enc T t p.2) t' x) : Fine T t' x := by
  obtain ⟨ms, e, hm⟩ := enc_entries hw hp
  have := h.fine hn t' x
  rw [e] at this
  exact this (.entry hm hr)

theorem mem_structOf {s : Struct} {val : String → Val} {go : String} (h : go ∈ s.names) :
    (go, val go) ∈ s.names.map (fun go => (go, val go)) := List.mem_map.2 ⟨go, h, rfl⟩

theorem noNulls_field {n : String} {s : Struct} (hn : GoMap.get? T n = some (.struct s)) {val : String → Val}
    (h : NoNulls T (.named n) (Spec.structOf s val)) {f : Field} (hf : f ∈ s.fields) (ho : omitted f (val f.go) = false) :
    NoNulls T f.ty (val f.go) :=
  noNulls_of h (fun _ _ hp => .field hn hf (mem_structOf (field_name hf)) ho hp)

theorem noNulls_hidden {n : String} {s : Struct} (hn : GoMap.get? T n = some (.struct s)) {val : String → Val}
    (h : NoNulls T (.named n) (Spec.structOf s val)) {f : Hidden} (hf : f ∈ s.hidden) (hm : f.go ∈ s.names) (hv : val f.go ≠ .nil) :
    NoNulls T f.ty (val f.go) :=
  noNulls_of h (fun _ _ hp => .hidden hn hf (mem_structOf hm) hv hp)

theorem entries_ne {v : Val} {p : String × Val} (hp : p ∈ entries v) : v ≠ .nil := by
  rintro rfl
  cases hp

theorem explicit_fine {t : Ty} {x : Any} (h : Reads T (Can T N) (.ptr .any) .null t x) : Fine T t x := by
  cases h with
  | self => exact ⟨fun _ => .inr rfl, (by simp), (by simp)⟩
  | ptr h => exact leaf_fine h ⟨by simp, by simp, by simp, by simp⟩ (fun _ => rfl)

/-- A struct that is written as its members. -/
theorem wr_members {n : String} {s : Struct} (hn : GoMap.get? T n = some (.struct s)) (hb : Base s) {val : String → Val}
    (he : encode T (.named n) (Spec.structOf s val) = some (.obj (membersFor T s val [])))
    (hpk : ∀ q ∈ s.patterns, ∀ k ∈ keysOf (val q.go), q.pat.matches k = true)
    (hak : ∀ a, s.additional = some a → ∀ k ∈ keysOf (val a.go), ∀ q ∈ s.patterns, q.pat.matches k = false)
    (hf : ∀ f ∈ s.fields, ¬ExplicitNull s f (val f.go) → Wr T N f.ty (val f.go))
    (hp : ∀ q ∈ s.patterns, MapGood T N q.ty (val q.go) ∧ Wr T N (.map q.ty) (val q.go))
    (ha : ∀ a, s.additional = some a → MapGood T N a.ty (val a.go) ∧ Wr T N (.map a.ty) (val a.go))
    (hsch : n = "Schema" → ∀ k ∈ ["required", "enum"], (k, .arr []) ∉ membersFor T s val [])
    (halt : ∀ o ∈ s.oneOf, ∀ t x, Reads T (Can T N) o.ty (.obj (membersFor T s val [])) t x → Fine T t x) :
    Wr T N (.named n) (Spec.structOf s val) := by
  have hnull : ∀ f ∈ s.fields, ExplicitNull s f (val f.go) → f.ty = .ptr .any ∧ enc T f.ty (val f.go) = .null := by
    intro f hff hx
    have h := nulls_field hb hff hx.1 rfl
    have ht : f.ty = .ptr .any := by rw [h]
    rw [ht, hx.2]
    exact ⟨rfl, rfl⟩
  refine ⟨?_, ?_⟩
  · rw [enc_of he]
    refine floats_members ?_ ?_ ?_
    · intro f hff
      by_cases hx : ExplicitNull s f (val f.go)
      · rw [(hnull f hff hx).2]; exact floats_null
      · exact (hf f hff hx).floats
    · intro q hq p hpp
      exact entries_floats (hp q hq).1 (hp q hq).2 hpp
    · intro a haa p hpp
      exact entries_floats (ha a haa).1 (ha a haa).2 hpp
  · intro hN t x hr
    rw [enc_of he] at hr
    refine reads_members hn hb hpk hak hr ?_ ?_ ?_ ?_ ?_
    · rintro rfl rfl
      refine ⟨by simp, fun _ _ _ _ _ _ => ⟨_, rfl⟩, ?_⟩
      intro ms e e'
      cases e'
      cases e
      exact hsch rfl
    · intro f hff ho hr
      by_cases hx : ExplicitNull s f (val f.go)
      · obtain ⟨e1, e2⟩ := hnull f hff hx
        rw [e2, e1] at hr
        exact explicit_fine hr
      · exact (hf f hff hx).fine (noNulls_field hn hN hff ho) t x hr
    · intro q hq p hpp hr
      exact entries_fine (hp q hq).1 (hp q hq).2 hpp (noNulls_hidden (f := ⟨q.go, .map q.ty⟩) hn hN
        (by unfold Struct.hidden; simp only [List.mem_append]; exact .inl (.inr (List.mem_map.2 ⟨q, hq, rfl⟩)))
        (pattern_name hq) (entries_ne hpp)) hr
    · intro a haa p hpp hr
      exact entries_fine (ha a haa).1 (ha a haa).2 hpp (noNulls_hidden (f := ⟨a.go, .map a.ty⟩) hn hN
        (by unfold Struct.hidden; simp [haa]) (additional_name (a := a) haa) (entries_ne hpp)) hr
    · intro o ho hr
      exact halt o ho t x hr

theorem enc_empty {t : Ty} {v : Val} (h : enc T (.slice t) v = .arr []) : v = .list [] := by
  unfold enc at h
  cases v with
  | list vs =>
    rw [encode_slice] at h
    cases vs with
    | nil => rfl
    | cons x xs =>
      cases hm : mapAll (encode T t) (x :: xs) with
      | none => rw [hm] at h; cases h
      | some ys =>
        rw [hm] at h
        cases h
        rw [mapAll] at hm
        split at hm <;> cases hm
  | _ => cases h

/-- The lists `required` and `enum` of a schema are not written when they are empty. -/
theorem schema_lists {val : String → Val}
    (hpk : ∀ q ∈ V30.sSchema.patterns, ∀ k ∈ keysOf (val q.go), q.pat.matches k = true) :
    ∀ k ∈ ["required", "enum"], (k, .arr []) ∉ membersFor T V30.sSchema val [] := by
  intro k hk hm
  rcases mem_membersFor hm with hm | ⟨f, hf, ho, e⟩ | ⟨q, hq, hm⟩ | ⟨a, ha, _⟩
  · cases hm
  · simp only [Prod.mk.injEq] at e
    obtain ⟨e1, e2⟩ := e
    have : ∃ t, f.ty = .slice t ∧ f.omitempty = true := by
      have hall : ∀ f ∈ V30.sSchema.fields, f.key ∈ ["required", "enum"] → (f.ty = .slice .str ∨ f.ty = .slice .any) ∧ f.omitempty = true := by
        decide
      obtain ⟨h1 | h1, h2⟩ := hall f hf (e1 ▸ hk)
      · exact ⟨_, h1, h2⟩
      · exact ⟨_, h1, h2⟩
    obtain ⟨t, h1, h2⟩ := this
    rw [h1] at e2
    rw [enc_empty e2.symm] at ho
    simp only [omitted, h2, h1, isEmpty] at ho
    cases ho
  · have h1 := hpk q hq k (mem_mapMembers hm)
    have : q.pat = .x := by
      have : ∀ q ∈ V30.sSchema.patterns, q.pat = .x := by decide
      exact this q hq
    rw [this] at h1
    simp only [List.mem_cons, List.not_mem_nil, or_false] at hk
    rcases hk with rfl | rfl <;> exact absurd h1 (by decide)
  · cases ha

/-- What is read as one of the two kinds of an HTTP security scheme. -/
theorem http_alternatives {M : List (String × Any)} (hs : ∀ x, ("scheme", x) ∈ M → x ≠ .null) {o : Hidden}
    (ho : o ∈ V30.sHTTPSecurityScheme.oneOf) {t : Ty} {x : Any}
    (h : Reads V30.table (Can V30.table N) o.ty (.obj M) t x) : Fine V30.table t x := by
  simp only [V30.sHTTPSecurityScheme, List.mem_cons, List.not_mem_nil, or_false] at ho
  have hB : GoMap.get? V30.table "Bearer" = some (.struct V30.sBearer) := by kernel_rfl
  have hN : GoMap.get? V30.table "NonBearer" = some (.struct V30.sNonBearer) := by kernel_rfl
  rcases ho with rfl | rfl
  · cases h with
    | self => exact ⟨by simp, by simp, by simp⟩
    | ptr h =>
      cases h with
      | self => exact ⟨by simp, fun _ _ _ _ _ _ => ⟨_, rfl⟩, by simp⟩
      | field hn hf => rw [hB] at hn; cases hn; cases hf
      | pattern hn hf => rw [hB] at hn; cases hn; cases hf
      | additional hn hf => rw [hB] at hn; cases hn; cases hf
      | alternative hn hf => rw [hB] at hn; cases hn; cases hf
  · cases h with
    | self => exact ⟨by simp, by simp, by simp⟩
    | ptr h =>
      cases h with
      | self => exact ⟨by simp, fun _ _ _ _ _ _ => ⟨_, rfl⟩, by simp⟩
      | field hn hf hx hr =>
        rw [hN] at hn
        cases hn
        simp only [V30.sNonBearer, List.mem_cons, List.not_mem_nil, or_false] at hf
        subst hf
        have := hs _ hx
        cases hr with
        | self => exact ⟨fun e => absurd e this, by simp, by simp⟩
        | ptr h => exact leaf_fine h ⟨by simp, by simp, by simp, by simp⟩ (fun _ => rfl)
      | pattern hn hf => rw [hN] at hn; cases hn; cases hf
      | additional hn hf => rw [hN] at hn; cases hn; cases hf
      | alternative hn hf => rw [hN] at hn; cases hn; cases hf

theorem wr_leaf {ty : Ty} {v : Val} (hf : Floats N (enc T ty v))
    (hl : (∀ n, ty ≠ .named n) ∧ (∀ s, ty ≠ .ptr s) ∧ (∀ s, ty ≠ .slice s) ∧ (∀ s, ty ≠ .map s))
    (hj : enc T ty v = .null → ty = .any) : Wr T N ty v :=
  ⟨hf, fun _ _ _ hr => leaf_fine hr hl hj⟩

theorem wr_nil {ty : Ty} (he : enc T ty .nil = .null) : Wr T N ty .nil :=
  ⟨by rw [he]; exact floats_null, fun hn => absurd (.self _ _) (hn ty)⟩

theorem fine_nonnull {ty : Ty} {j : Any} (h : j ≠ .null) (hn : ∀ n, ty ≠ .named n) : Fine T ty j :=
  ⟨fun e => absurd e h, fun n _ e => absurd e (hn n), fun _ e => absurd e (hn _)⟩

theorem writable_wr (hI : ∀ l, N.i64 l = some l → N.f64 l ≠ none) {ty : Ty} {v : Val}
    (h : Writable V30.table N ok30 ty v) : Everywhere noDerived v → Wr V30.table N ty v := by
  have F := facts30 N
  induction h with
  | any h =>
    intro _
    refine wr_leaf ?_ ⟨by simp, by simp, by simp, by simp⟩ (fun _ => rfl)
    rw [enc_of (encode_any _ _)]
    exact decodeAny_floats h
  | bool b =>
    intro _
    exact wr_leaf (by intro l hl; cases hl) ⟨by simp, by simp, by simp, by simp⟩ (by intro e; cases e)
  | str b =>
    intro _
    exact wr_leaf (by intro l hl; cases hl) ⟨by simp, by simp, by simp, by simp⟩ (by intro e; cases e)
  | @int lit h =>
    intro _
    refine wr_leaf ?_ ⟨by simp, by simp, by simp, by simp⟩ (by intro e; cases e)
    intro l hl
    have : l = lit := by simpa [enc, literals] using hl
    rw [this]
    exact hI _ h
  | @float lit h =>
    intro _
    refine wr_leaf ?_ ⟨by simp, by simp, by simp, by simp⟩ (by intro e; cases e)
    intro l hl
    have : l = lit := by simpa [enc, literals] using hl
    rw [this, h]
    simp
  | nilPtr t => intro _; exact wr_nil rfl
  | @ptr t v ht h1 h2 h ih =>
    intro hE
    have he : enc V30.table (.ptr t) v = enc V30.table t v := by
      unfold enc
      rw [encode_ptr V30.table h1]
    have ih := ih hE
    refine ⟨by rw [he]; exact ih.floats, ?_⟩
    intro hN t' x hr
    rw [he] at hr
    cases hr with
    | self =>
      refine fine_nonnull ?_ (by simp)
      intro e
      have g := writable_good F h
      rcases g.null (by rw [enc_some g.rt.writes, e]) with e | e
      · exact h1 e
      · exact h2 e
    | ptr hr => exact ih.fine (noNulls_of hN (fun _ _ hp => .ptr h1 hp)) t' x hr
  | nilSlice t => intro _; exact wr_nil rfl
  | @slice t vs h ih =>
    intro hE
    have he : encode V30.table (.slice t) (.list vs) = some (.arr (vs.map (enc V30.table t))) := by
      rw [encode_slice, mapAll_some_of (g := enc V30.table t)]
      · rfl
      · intro x hx; exact enc_some (writable_good F (h x hx)).rt.writes
    refine ⟨?_, ?_⟩
    · rw [enc_of he]
      intro l hl
      obtain ⟨x, hx, hl⟩ := literals_arr.1 hl
      obtain ⟨y, hy, rfl⟩ := List.mem_map.1 hx
      exact (ih y hy (Spec.Everywhere.list hE hy)).floats l hl
    · intro hN t' x hr
      rw [enc_of he] at hr
      cases hr with
      | self => exact fine_nonnull (by simp) (by simp)
      | elem hx hr =>
        obtain ⟨y, hy, rfl⟩ := List.mem_map.1 hx
        exact (ih y hy (Spec.Everywhere.list hE hy)).fine (noNulls_of hN (fun _ _ hp => .elem hy hp)) t' x hr
  | nilMap t => intro _; exact wr_nil rfl
  | @map t ms hk h ih =>
    intro hE
    have he : encode V30.table (.map t) (.map ms) = some (.obj (ms.map (fun p => (p.1, enc V30.table t p.2)))) := by
      rw [encode_map, mapAll_some_of (g := fun p => (p.1, enc V30.table t p.2))]
      · rfl
      · intro p hp
        rw [enc_some (writable_good F (h p.1 p.2 hp)).rt.writes]
        rfl
    refine ⟨?_, ?_⟩
    · rw [enc_of he]
      intro l hl
      obtain ⟨k, x, hx, hl⟩ := literals_obj.1 hl
      obtain ⟨y, hy, e⟩ := List.mem_map.1 hx
      cases e
      exact (ih y.1 y.2 hy (Spec.Everywhere.map hE hy)).floats l hl
    · intro hN t' x hr
      rw [enc_of he] at hr
      cases hr with
      | self => exact fine_nonnull (by simp) (by simp)
      | entry hx hr =>
        obtain ⟨y, hy, e⟩ := List.mem_map.1 hx
        cases e
        exact (ih y.1 y.2 hy (Spec.Everywhere.map hE hy)).fine (noNulls_of hN (fun _ _ hp => .entry (k := y.1) hy hp)) t' x hr
  | @enum n values hn s h =>
    intro _
    have hc : values.contains s = true := List.contains_iff_mem.2 h
    have he : enc V30.table (.named n) (.str s) = .str s := enc_of (by rw [encode_enum hn, if_pos hc])
    refine ⟨(by rw [he]; intro l hl; cases hl), ?_⟩
    intro _ t x hr
    rw [he] at hr
    cases hr with
    | self =>
      refine ⟨by simp, ?_, by simp⟩
      intro n' s' e hs
      cases e
      rw [hn] at hs
      cases hs
    | alternative hs => rw [hn] at hs; cases hs
  | @plain n s hn hs hb val hf hp hpk ha hak hone hlow hnot ihf ihp iha =>
    intro hE
    have P := F.plain n s hn hs hb
    have V : PlainVal V30.table N s val := by
      refine ⟨?_, ?_, hpk, ?_, hak, hone, hlow⟩
      · intro f hff
        by_cases hx : ExplicitNull s f (val f.go)
        · exact .inl hx
        · exact .inr (writable_good F (hf f hff hx)).rt
      · intro q hq; exact (writable_good F (hp q hq)).deep
      · intro a haa; exact (writable_good F (ha a haa)).deep
    refine wr_members hn P.toBase (encode_plainVal hn P V) hpk hak ?_ ?_ ?_ ?_ ?_
    · intro f hff hx
      exact ihf f hff hx (Spec.Everywhere.field hE (field_name hff))
    · intro q hq
      exact ⟨V.patterns q hq, ihp q hq (Spec.Everywhere.field hE (pattern_name hq))⟩
    · intro a haa
      exact ⟨V.add a haa, iha a haa (Spec.Everywhere.field hE (additional_name haa))⟩
    · rintro rfl
      have : GoMap.get? V30.table "Schema" = some (.struct V30.sSchema) := by kernel_rfl
      rw [this] at hn
      cases hn
      exact schema_lists hpk
    · intro o ho
      rw [hs.2] at ho
      cases ho
  | @union n s hn hs go t v ho hv h hok ih =>
    intro hE
    obtain ⟨h1, _, _, _⟩ := F.union n s hn hs (List.ne_nil_of_mem ho)
    have g := writable_good F h
    obtain ⟨⟨j, w, he, hd, hsame⟩, hdeep, hnull⟩ := g
    have hj : j ≠ .null := by
      rintro rfl
      rcases hnull he with e | e
      · exact hv e
      · rcases hdeep with e' | e'
        · exact hv e'
        · exact e'.2.1 e
    have hu := encode_union hn hs h1 ho he hj
    have hwr := ih (Spec.Everywhere.struct hE (k := go) (List.mem_map.2 ⟨_, ho, by simp⟩))
    refine ⟨by rw [enc_of hu, ← enc_of he]; exact hwr.floats, ?_⟩
    intro hN t' x hr
    rw [enc_of hu] at hr
    have hwhole := (writable_good F (.union hn hs ho hv h hok)).rt
    obtain ⟨j', w', he', hd', _⟩ := hwhole
    rw [hu] at he'
    cases he'
    have hone := (can_union ranked30 hn hs (List.ne_nil_of_mem ho)).1 (by rw [Can, hd']; rfl)
    cases hr with
    | self =>
      refine ⟨fun e => absurd e hj, ?_, ?_⟩
      · intro n' s' e hs' _ h0
        cases e
        rw [hn] at hs'
        cases hs'
        rw [h0] at ho
        cases ho
      · intro ms e
        cases e
        have : GoMap.get? V30.table "Schema" = some (.struct V30.sSchema) := by kernel_rfl
        rw [this] at hn
        cases hn
        cases ho
    | field hn' hf => rw [hn] at hn'; cases hn'; rw [hs] at hf; cases hf
    | pattern hn' hf => rw [hn] at hn'; cases hn'; rw [hs] at hf; cases hf
    | additional hn' hf => rw [hn] at hn'; cases hn'; rw [hs] at hf; cases hf
    | @alternative _ s' hn' o ho' _ _ _ hc hr =>
      rw [hn] at hn'
      cases hn'
      have m1 : o ∈ s.oneOf.filter (fun e => (decode V30.table N e.ty j).isSome) := List.mem_filter.2 ⟨ho', hc⟩
      have m2 : (⟨go, .ptr t⟩ : Hidden) ∈ s.oneOf.filter (fun e => (decode V30.table N e.ty j).isSome) :=
        List.mem_filter.2 ⟨ho, by simp [hd]⟩
      obtain ⟨z, hz⟩ := List.length_eq_one_iff.1 hone
      rw [hz, List.mem_singleton] at m1 m2
      rw [m1, ← m2, ← enc_of he] at hr
      refine hwr.fine (noNulls_of hN (fun _ _ hp => .hidden hn (f := ⟨go, .ptr t⟩) ?_ ?_ hv hp)) t' x hr
      · unfold Struct.hidden
        simp only [List.mem_append]
        exact .inl (.inl (.inr ho))
      · exact List.mem_map.2 ⟨_, ho, by simp⟩
  | http hn val hf hp hpk hs ihf ihp =>
    intro hE
    have hb : Base V30.sHTTPSecurityScheme := base_of_check (by decide +kernel)
    have hP : ∀ q ∈ V30.sHTTPSecurityScheme.patterns, MapGood V30.table N q.ty (val q.go) := patterns_x rfl (writable_good F hp).deep
    have he := encode_nil_parts hn hb (X := ["Bearer", "NonBearer"]) rfl rfl
      (fun f hff => .inr (writable_good F (hf f hff)).rt) hP (by
        intro go hgo
        simp only [List.mem_cons, List.not_mem_nil, or_false] at hgo
        rcases hgo with rfl | rfl
        · exact ⟨_, rfl, by decide, derived_nil hE (by decide) (by decide)⟩
        · exact ⟨_, rfl, by decide, derived_nil hE (by decide) (by decide)⟩)
    have hkeys : ∀ q ∈ V30.sHTTPSecurityScheme.patterns, ∀ k ∈ keysOf (val q.go), q.pat.matches k = true :=
      patterns_x rfl fun k hk => x_matches.2 (hpk k hk)
    refine wr_members hn hb he hkeys (by intro a ha; cases ha) ?_ ?_ (by intro a ha; cases ha)
      (by intro e; exact absurd e (by decide)) ?_
    · intro f hff _
      exact ihf f hff (Spec.Everywhere.field hE (field_name hff))
    · exact patterns_x rfl ⟨(writable_good F hp).deep, ihp (Spec.Everywhere.field hE (by decide))⟩
    · intro o ho t x hr
      refine http_alternatives ?_ ho hr
      intro y hy
      have hm : (⟨"Scheme", "scheme", .str, false⟩ : Field) ∈ V30.sHTTPSecurityScheme.fields := by decide
      rcases mem_membersFor hy with hm' | ⟨f, hff, ho, e⟩ | ⟨q, hq, hm'⟩ | ⟨a, ha, _⟩
      · exact absurd hm' (by decide)
      · simp only [Prod.mk.injEq] at e
        have : f = ⟨"Scheme", "scheme", .str, false⟩ := field_eq hb hff hm e.1.symm
        rw [e.2, this]
        have hw := hf _ hm
        have hv : ∃ t, val "Scheme" = .str t := by
          generalize val "Scheme" = v at hw
          cases hw
          exact ⟨_, rfl⟩
        obtain ⟨t, hv⟩ := hv
        simp only [hv]
        intro e
        cases e
      · have h1 := hkeys q hq _ (mem_mapMembers hm')
        have : q.pat = .x := by
          have : ∀ q ∈ V30.sHTTPSecurityScheme.patterns, q.pat = .x := by decide
          exact this q hq
        rw [this] at h1
        exact absurd (show Pat.x.matches "scheme" = true from h1) (by decide)
      · cases ha
  | security hn => exact absurd hn (by decide +kernel)
  | parameter hn val hf hp hpk hx hin hreq hst hl ihf ihp =>
    intro hE
    have hb : Base V30.sParameter := base_of_check (by decide +kernel)
    have hP : ∀ q ∈ V30.sParameter.patterns, MapGood V30.table N q.ty (val q.go) := patterns_x rfl (writable_good F hp).deep
    have he := encode_nil_parts hn hb (X := ["SchemaXORContent", "Location"]) rfl rfl (by
        intro f hff
        by_cases hx : ExplicitNull V30.sParameter f (val f.go)
        · exact .inl hx
        · exact .inr (writable_good F (hf f hff hx)).rt) hP (by
        intro go hgo
        simp only [List.mem_cons, List.not_mem_nil, or_false] at hgo
        rcases hgo with rfl | rfl
        · exact ⟨_, rfl, by decide, derived_nil hE (by decide) (by decide)⟩
        · exact ⟨_, rfl, by decide, derived_nil hE (by decide) (by decide)⟩)
    refine wr_members hn hb he (patterns_x rfl fun k hk => x_matches.2 (hpk k hk)) (by intro a ha; cases ha) ?_ ?_
      (by intro a ha; cases ha) (by intro e; exact absurd e (by decide)) (by intro o ho; cases ho)
    · intro f hff hx
      exact ihf f hff hx (Spec.Everywhere.field hE (field_name hff))
    · exact patterns_x rfl ⟨(writable_good F hp).deep, ihp (Spec.Everywhere.field hE (by decide))⟩

end Verif.Meta
