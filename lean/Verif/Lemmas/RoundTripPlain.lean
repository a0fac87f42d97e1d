import Verif.Lemmas.RoundTripStruct

/-! Structs without alternatives that are written and read back. -/

namespace Verif
open Codec Spec

variable {T : Table} {N : Nums}

/-- The members a value is written as, followed by others. -/
def membersFor (T : Table) (s : Struct) (val : String → Val) (E : List (String × Any)) : List (String × Any) :=
  constMembers s ++ fieldMembers T s val ++ patMembers T s val ++ addMembers T s val ++ E

theorem filter_none {α : Type} {l : List α} {p : α → Bool} (h : ∀ x ∈ l, p x = false) : l.filter p = [] := by
  rw [List.filter_eq_nil_iff]
  intro x hx
  simp [h x hx]

theorem filter_flatMap_one {α β : Type} {l : List α} {g : α → List β} {p : β → Bool} {q : α} (hnd : l.Nodup)
    (hq : q ∈ l) (h1 : ∀ x ∈ g q, p x = true) (h2 : ∀ q' ∈ l, q' ≠ q → ∀ x ∈ g q', p x = false) :
    (l.flatMap g).filter p = g q := by
  induction l with
  | nil => cases hq
  | cons a l ih =>
    rw [List.nodup_cons] at hnd
    rw [List.flatMap_cons, List.filter_append]
    by_cases e : a = q
    · subst e
      rw [List.filter_eq_self.2 h1, filter_none, List.append_nil]
      intro x hx
      obtain ⟨q', hq', hx⟩ := List.mem_flatMap.1 hx
      exact h2 q' (List.mem_cons_of_mem _ hq') (fun e => hnd.1 (e ▸ hq')) x hx
    · rw [filter_none (h2 a List.mem_cons_self e), List.nil_append]
      rcases List.mem_cons.1 hq with hq | hq
      · exact absurd hq.symm e
      · exact ih hnd.2 hq (fun q' hq' => h2 q' (List.mem_cons_of_mem _ hq'))

theorem nodup_of_map {α β : Type} {f : α → β} {l : List α} (h : (l.map f).Nodup) : l.Nodup := by
  induction l with
  | nil => exact List.nodup_nil
  | cons a l ih =>
    rw [List.map_cons, List.nodup_cons] at h
    rw [List.nodup_cons]
    exact ⟨fun ha => h.1 (List.mem_map_of_mem ha), ih h.2⟩

theorem patterns_nodup {s : Struct} (hb : Base s) : s.patterns.Nodup := by
  have := hb.names
  unfold Struct.names at this
  exact nodup_of_map (List.nodup_append.1 (List.nodup_append.1 this).1).2.1

theorem const_not_kept {s : Struct} {p : String × Any} (h : p ∈ constMembers s) : kept s p.1 = false := by
  unfold constMembers at h
  obtain ⟨c, hc, rfl⟩ := List.mem_map.1 h
  have : s.consts.any (fun c' => c'.1 == c.1) = true := List.any_eq_true.2 ⟨c, hc, by simp⟩
  simp only [kept, this]
  simp

theorem mem_fieldMembers {s : Struct} {val : String → Val} {p : String × Any} :
    p ∈ fieldMembers T s val ↔ ∃ f ∈ s.fields, omitted f (val f.go) = false ∧ p = (f.key, enc T f.ty (val f.go)) := by
  unfold fieldMembers
  simp only [List.mem_map, List.mem_filter, Bool.not_eq_eq_eq_not, Bool.not_true]
  constructor
  · rintro ⟨f, ⟨h1, h2⟩, rfl⟩; exact ⟨f, h1, h2, rfl⟩
  · rintro ⟨f, h1, h2, rfl⟩; exact ⟨f, ⟨h1, h2⟩, rfl⟩

theorem mem_mapMembers {ty : Ty} {v : Val} {p : String × Any} (h : p ∈ mapMembers T ty v) : p.1 ∈ keysOf v := by
  unfold mapMembers at h
  obtain ⟨x, hx, rfl⟩ := List.mem_map.1 h
  rw [keysOf_entries]
  exact List.mem_map_of_mem hx

theorem field_not_kept {s : Struct} {val : String → Val} {p : String × Any} (hk : ∀ f ∈ s.fields, f.key ∈ s.known)
    (h : p ∈ fieldMembers T s val) : kept s p.1 = false := by
  obtain ⟨f, hf, _, rfl⟩ := mem_fieldMembers.1 h
  simp only [kept, List.contains_iff_mem.2 (hk f hf)]
  rfl

theorem filter_pattern {s : Struct} (hb : Base s) {val : String → Val} {E : List (String × Any)}
    (hpk : ∀ q ∈ s.patterns, ∀ k ∈ keysOf (val q.go), q.pat.matches k = true)
    (hak : ∀ a, s.additional = some a → ∀ k ∈ keysOf (val a.go), ∀ q ∈ s.patterns, q.pat.matches k = false)
    (hE : ∀ p ∈ E, kept s p.1 = false ∨ ∀ q ∈ s.patterns, q.pat.matches p.1 = false) {q : PatField}
    (hq : q ∈ s.patterns) :
    (membersFor T s val E).filter (fun p => kept s p.1 && q.pat.matches p.1) = mapMembers T q.ty (val q.go) := by
  have hk : ∀ f ∈ s.fields, f.key ∈ s.known := by
    rcases hb.known with ⟨h, _⟩ | h
    · rw [h] at hq; cases hq
    · exact h
  unfold membersFor
  rw [List.filter_append, List.filter_append, List.filter_append, List.filter_append]
  rw [filter_none (l := constMembers s) (fun p hp => by rw [const_not_kept hp]; rfl)]
  rw [filter_none (l := fieldMembers T s val) (fun p hp => by rw [field_not_kept hk hp]; rfl)]
  rw [filter_none (l := addMembers T s val), filter_none (l := E)]
  · unfold patMembers
    rw [filter_flatMap_one (patterns_nodup hb) hq]
    · simp
    · intro p hp
      have hm := hpk q hq p.1 (mem_mapMembers hp)
      rw [hb.patKept q hq p.1 hm, hm]
      rfl
    · intro q' hq' hne p hp
      have hm := hpk q' hq' p.1 (mem_mapMembers hp)
      rw [hb.patOther q' hq' q hq hne p.1 hm, Bool.and_false]
  · intro p hp
    rcases hE p hp with h | h
    · rw [h]; rfl
    · rw [h q hq, Bool.and_false]
  · intro p hp
    unfold addMembers at hp
    split at hp
    · rename_i a ha
      rw [hak a ha p.1 (mem_mapMembers hp) q hq, Bool.and_false]
    · cases hp

theorem filter_rest {s : Struct} (hb : Base s) {val : String → Val} {E : List (String × Any)}
    (hpk : ∀ q ∈ s.patterns, ∀ k ∈ keysOf (val q.go), q.pat.matches k = true)
    (hak : ∀ a, s.additional = some a → ∀ k ∈ keysOf (val a.go), ∀ q ∈ s.patterns, q.pat.matches k = false)
    (hE : ∀ p ∈ E, kept s p.1 = false) (h : s.additional.isSome = true ∨ s.strict = true) :
    (membersFor T s val E).filter (fun p => kept s p.1 && !s.patterns.any (fun q => q.pat.matches p.1)) =
      addMembers T s val := by
  have hk : ∀ f ∈ s.fields, f.key ∈ s.known := by
    rcases hb.known with ⟨_, h1, h2⟩ | h
    · rw [h1, h2] at h; rcases h with h | h <;> cases h
    · exact h
  unfold membersFor
  rw [List.filter_append, List.filter_append, List.filter_append, List.filter_append]
  rw [filter_none (l := constMembers s) (fun p hp => by rw [const_not_kept hp]; rfl)]
  rw [filter_none (l := fieldMembers T s val) (fun p hp => by rw [field_not_kept hk hp]; rfl)]
  rw [filter_none (l := patMembers T s val), filter_none (l := E)]
  · rw [List.filter_eq_self.2]
    · simp
    · intro p hp
      unfold addMembers at hp
      split at hp
      · rename_i a ha
        rw [(hb.additional (by rw [ha]; rfl)).2.2 p.1]
        simp only [Bool.true_and, Bool.not_eq_eq_eq_not, Bool.not_true, List.any_eq_false]
        intro q hq
        rw [hak a ha p.1 (mem_mapMembers hp) q hq]
        simp
      · cases hp
  · intro p hp; rw [hE p hp]; rfl
  · intro p hp
    unfold patMembers at hp
    obtain ⟨q, hq, hp⟩ := List.mem_flatMap.1 hp
    have : s.patterns.any (fun q => q.pat.matches p.1) = true :=
      List.any_eq_true.2 ⟨q, hq, hpk q hq p.1 (mem_mapMembers hp)⟩
    rw [this]
    simp

/-- The members that are for a field. -/
theorem members_field {s : Struct} (hb : Base s) {val : String → Val} {E : List (String × Any)}
    (hpk : ∀ q ∈ s.patterns, ∀ k ∈ keysOf (val q.go), q.pat.matches k = true)
    (hE : ∀ p ∈ E, ∀ f ∈ s.fields, fieldOf s.fields p.1 = some f →
      p.1 = f.key ∧ omitted f (val f.go) = false ∧ p.2 = enc T f.ty (val f.go))
    {p : String × Any} (hp : p ∈ membersFor T s val E) {f : Field} (hf : f ∈ s.fields)
    (hfo : fieldOf s.fields p.1 = some f) :
    p.1 = f.key ∧ omitted f (val f.go) = false ∧ p.2 = enc T f.ty (val f.go) := by
  unfold membersFor at hp
  simp only [List.mem_append] at hp
  rcases hp with (((hp | hp) | hp) | hp) | hp
  · unfold constMembers at hp
    obtain ⟨c, hc, rfl⟩ := List.mem_map.1 hp
    rw [hb.consts c hc] at hfo
    cases hfo
  · obtain ⟨g, hg, ho, rfl⟩ := mem_fieldMembers.1 hp
    rw [hb.own g hg] at hfo
    cases hfo
    exact ⟨rfl, ho, rfl⟩
  · unfold patMembers at hp
    obtain ⟨q, hq, hp⟩ := List.mem_flatMap.1 hp
    rw [hb.patFields q hq p.1 (hpk q hq p.1 (mem_mapMembers hp))] at hfo
    cases hfo
  · unfold addMembers at hp
    split at hp
    · rename_i a ha
      rw [(hb.additional (by rw [ha]; rfl)).1] at hf
      cases hf
    · cases hp
  · exact hE p hp f hf hfo

theorem members_key {s : Struct} (hb : Base s) {val : String → Val} {E : List (String × Any)}
    (hpk : ∀ q ∈ s.patterns, ∀ k ∈ keysOf (val q.go), q.pat.matches k = true)
    (hE : ∀ p ∈ E, ∀ f ∈ s.fields, fieldOf s.fields p.1 = some f →
      p.1 = f.key ∧ omitted f (val f.go) = false ∧ p.2 = enc T f.ty (val f.go))
    {f : Field} (hf : f ∈ s.fields) :
    f.key ∈ (membersFor T s val E).map Prod.fst ↔ omitted f (val f.go) = false := by
  constructor
  · intro h
    obtain ⟨p, hp, e⟩ := List.mem_map.1 h
    exact (members_field hb hpk hE hp hf (by rw [e]; exact hb.own f hf)).2.1
  · intro h
    have : (f.key, enc T f.ty (val f.go)) ∈ fieldMembers T s val := mem_fieldMembers.2 ⟨f, hf, h, rfl⟩
    apply List.mem_map.2
    refine ⟨(f.key, enc T f.ty (val f.go)), ?_, rfl⟩
    unfold membersFor
    simp only [List.mem_append]
    exact .inl (.inl (.inl (.inr this)))

theorem const_is (c : Const) : c.is c.json = true := by
  cases c <;> simp [Const.is, Const.json]

theorem members_const {s : Struct} (hb : Base s) {val : String → Val} {E : List (String × Any)}
    (hpk : ∀ q ∈ s.patterns, ∀ k ∈ keysOf (val q.go), q.pat.matches k = true)
    (hE : ∀ p ∈ E, ∀ c ∈ s.consts, p.1 = c.1 → c.2.is p.2 = true) {c : String × Const} (hc : c ∈ s.consts)
    {p : String × Any} (hp : p ∈ membersFor T s val E) (e : p.1 = c.1) : c.2.is p.2 = true := by
  unfold membersFor at hp
  simp only [List.mem_append] at hp
  rcases hp with (((hp | hp) | hp) | hp) | hp
  · unfold constMembers at hp
    obtain ⟨c', hc', rfl⟩ := List.mem_map.1 hp
    have : c' = c := by
      have hnd := hb.constsNodup
      clear hp hE
      generalize s.consts = l at *
      induction l with
      | nil => cases hc
      | cons x l ih =>
        rw [List.map_cons, List.nodup_cons] at hnd
        rcases List.mem_cons.1 hc' with h1 | h1 <;> rcases List.mem_cons.1 hc with h2 | h2
        · rw [h1, h2]
        · exfalso
          apply hnd.1
          rw [← h1]
          exact List.mem_map.2 ⟨c, h2, e.symm⟩
        · exfalso
          apply hnd.1
          rw [← h2]
          exact List.mem_map.2 ⟨c', h1, e⟩
        · exact ih h2 h1 hnd.2
    rw [this]
    exact const_is _
  · obtain ⟨g, hg, ho, rfl⟩ := mem_fieldMembers.1 hp
    have := hb.own g hg
    simp only at e
    rw [e, hb.consts c hc] at this
    cases this
  · unfold patMembers at hp
    obtain ⟨q, hq, hp⟩ := List.mem_flatMap.1 hp
    have := hb.patKept q hq p.1 (hpk q hq p.1 (mem_mapMembers hp))
    rw [e] at this
    have h2 : s.consts.any (fun c' => c'.1 == c.1) = true := List.any_eq_true.2 ⟨c, hc, by simp⟩
    simp only [kept, h2] at this
    simp at this
  · unfold addMembers at hp
    split at hp
    · rename_i a ha
      rw [(hb.additional (by rw [ha]; rfl)).2.1] at hc
      cases hc
    · cases hp
  · exact hE p hp c hc e

/-- What a struct without alternatives has besides `Base`. -/
structure Plain (s : Struct) : Prop extends Base s where
  parts : s.parts = canonParts s
  require : ∀ k ∈ s.require, k ∈ s.consts.map Prod.fst ∨ ∃ f ∈ s.fields, f.key = k ∧ f.omitempty = false

def plainCheck (s : Struct) : Bool :=
  baseCheck s && s.parts == canonParts s && s.require.all (fun k => (s.consts.map Prod.fst).contains k ||
    s.fields.any (fun f => f.key == k && !f.omitempty))

theorem plain_of_check {s : Struct} (h : plainCheck s = true) : Plain s := by
  unfold plainCheck at h
  simp only [Bool.and_eq_true, List.all_eq_true, Bool.or_eq_true, List.any_eq_true, beq_iff_eq, Bool.not_eq_true',
    List.contains_iff_mem] at h
  exact { base_of_check h.1.1 with parts := h.1.2, require := h.2 }

/-- The values of structs without alternatives that can be written. -/
structure PlainVal (T : Table) (N : Nums) (s : Struct) (val : String → Val) : Prop where
  fields : ∀ f ∈ s.fields, FieldRt T N s val f
  patterns : ∀ q ∈ s.patterns, MapGood T N q.ty (val q.go)
  patKeys : ∀ q ∈ s.patterns, ∀ k ∈ keysOf (val q.go), q.pat.matches k = true
  add : ∀ a, s.additional = some a → MapGood T N a.ty (val a.go)
  addKeys : ∀ a, s.additional = some a → ∀ k ∈ keysOf (val a.go), ∀ q ∈ s.patterns, q.pat.matches k = false
  one : ∀ a b, s.exactlyOne = some (a, b) → (Omitted s val a ∧ Written s val b) ∨ (Written s val a ∧ Omitted s val b)
  lower : ∀ c ∈ s.lower, ∃ t, val c.go = .str t ∧ (goToLower t == c.value) = c.mustBe

theorem written_key {s : Struct} {val : String → Val} {E : List (String × Any)} {k : String} (h : Written s val k) :
    k ∈ (membersFor T s val E).map Prod.fst := by
  obtain ⟨f, hf, rfl, ho⟩ := h
  have : (f.key, enc T f.ty (val f.go)) ∈ fieldMembers T s val := mem_fieldMembers.2 ⟨f, hf, ho, rfl⟩
  refine List.mem_map.2 ⟨(f.key, enc T f.ty (val f.go)), ?_, rfl⟩
  unfold membersFor
  simp only [List.mem_append]
  exact .inl (.inl (.inl (.inr this)))

theorem const_key {s : Struct} {val : String → Val} {E : List (String × Any)} {c : String × Const}
    (h : c ∈ s.consts) : (c.1, c.2.json) ∈ membersFor T s val E := by
  unfold membersFor
  simp only [List.mem_append]
  exact .inl (.inl (.inl (.inl (List.mem_map.2 ⟨c, h, rfl⟩))))

theorem omitted_key {s : Struct} (hb : Base s) {val : String → Val}
    (hpk : ∀ q ∈ s.patterns, ∀ k ∈ keysOf (val q.go), q.pat.matches k = true) {k : String} (h : Omitted s val k) :
    k ∉ (membersFor T s val []).map Prod.fst := by
  obtain ⟨f, hf, rfl, ho⟩ := h
  rw [members_key hb hpk (by intro p hp; cases hp) hf, ho]
  simp

theorem encode_plainVal {n : String} {s : Struct} (hn : GoMap.get? T n = some (.struct s)) (hb : Plain s)
    {val : String → Val} (hv : PlainVal T N s val) :
    encode T (.named n) (structOf s val) = some (.obj (membersFor T s val [])) := by
  rw [encode_parts hn hb.names (X := []) (J := fun _ => .null) (by rw [hb.parts]; simp) hb.hidden
    (fun f hf => field_encodes hb.toBase hf (hv.fields f hf))
    (fun q hq => (hv.patterns q hq).ok) (fun a ha => (hv.add a ha).ok) (by intro go hgo; cases hgo)]
  rfl

/-- A struct without alternatives is read back. -/
theorem plain_back (hT : Ranked T) {n : String} {s : Struct} (hn : GoMap.get? T n = some (.struct s)) (hb : Plain s)
    (hs : s.embeds = [] ∧ s.oneOf = []) {val : String → Val} (hv : PlainVal T N s val)
    (hnots : ∀ t ∈ s.nots, decode T N t (.obj (membersFor T s val [])) = none) :
    decode T N (.named n) (.obj (membersFor T s val [])) = some (.struct (s.fields.map (fun f => (f.go, fieldBack T N s val
      (membersFor T s val []) f)) ++ [] ++ [] ++ (s.patterns.map (fun q => (q.go, mapVal T N q.ty (val q.go))) ++
      addVals T N s val))) ∧ ∀ f ∈ s.fields, Same (val f.go) (fieldBack T N s val (membersFor T s val []) f) := by
  have hE : ∀ p ∈ ([] : List (String × Any)), ∀ f ∈ s.fields, fieldOf s.fields p.1 = some f →
      p.1 = f.key ∧ omitted f (val f.go) = false ∧ p.2 = enc T f.ty (val f.go) := fun p hp => nomatch hp
  exact decode_good (M := membersFor T s val []) (evals := []) (ovals := []) hT hn hb.toBase hv.fields
    (fun p hp f hf hfo => (members_field hb.toBase hv.patKeys hE hp hf hfo).2)
    (fun f hf => members_key hb.toBase hv.patKeys hE hf) hnots (by rw [hs.1]; rfl) (by rw [hs.2]; rfl)
    (by
      intro k hk
      rcases hb.require k hk with h | ⟨f, hf, rfl, ho⟩
      · obtain ⟨c, hc, rfl⟩ := List.mem_map.1 h
        exact List.mem_map.2 ⟨_, const_key hc, rfl⟩
      · rw [members_key hb.toBase hv.patKeys hE hf]
        unfold omitted
        rw [ho]; rfl)
    (by
      intro a b hab
      rcases hv.one a b hab with ⟨h1, h2⟩ | ⟨h1, h2⟩
      · have := omitted_key (T := T) hb.toBase hv.patKeys h1
        have := written_key (T := T) (E := []) h2
        constructor <;> intro <;> assumption
      · have h2 := omitted_key (T := T) hb.toBase hv.patKeys h2
        have h1 := written_key (T := T) (E := []) h1
        constructor
        · intro h; exact absurd h1 h
        · intro h; exact absurd h h2)
    (fun c hc p hp e => members_const hb.toBase hv.patKeys (by intro p hp; cases hp) hc hp e) hv.lower
    (fun q hq => ⟨filter_pattern hb.toBase hv.patKeys hv.addKeys (by intro p hp; cases hp) hq, (hv.patterns q hq).rt⟩)
    (by
      cases ha : s.additional with
      | some a =>
        refine ⟨?_, (hv.add a ha).rt⟩
        rw [filter_rest hb.toBase hv.patKeys hv.addKeys (by intro p hp; cases hp) (.inl (by rw [ha]; rfl))]
        simp [addMembers, ha]
      | none =>
        intro hst
        rw [filter_rest hb.toBase hv.patKeys hv.addKeys (by intro p hp; cases hp) (.inr hst)]
        simp [addMembers, ha])

theorem plain_rt (hT : Ranked T) {n : String} {s : Struct} (hn : GoMap.get? T n = some (.struct s)) (hb : Plain s)
    (hs : s.embeds = [] ∧ s.oneOf = []) {val : String → Val} (hv : PlainVal T N s val)
    (hnots : ∀ t ∈ s.nots, decode T N t (.obj (membersFor T s val [])) = none) :
    Rt T N (.named n) (structOf s val) := by
  obtain ⟨hd, hw⟩ := plain_back hT hn hb hs hv hnots
  refine ⟨_, _, encode_plainVal hn hb hv, hd, ?_⟩
  unfold structOf Struct.names
  rw [hs.1, hs.2]
  simp only [List.map_nil, List.append_nil, List.map_append, List.map_map, List.append_assoc]
  refine .struct (sameEntries_append ?_ (sameEntries_append ?_ ?_))
  · exact sameEntries_map (g := Field.go) (fun f hf => hw f hf)
  · exact sameEntries_map (g := PatField.go) (fun q hq => (hv.patterns q hq).same)
  · unfold addVals
    cases ha : s.additional with
    | none => exact .nil
    | some a => exact .cons (hv.add a ha).same .nil

end Verif
