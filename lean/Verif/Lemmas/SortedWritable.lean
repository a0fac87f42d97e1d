import Verif.Lemmas.SortedEncode
import Verif.Lemmas.Settled
import Verif.Lemmas.Distinct

/-! What can be written and read back still can be with its maps in order. -/

namespace Verif
open Codec Spec

variable {T : Table} {N : Nums}

theorem sorted_nil {v : Val} : sortedVal v = .nil ↔ v = .nil := by
  cases v <;> simp [sortedVal]

theorem sorted_null {a : Any} : sortedAny a = .null ↔ a = .null := by
  cases a <;> simp [sortedAny]

theorem sorted_any_null {v : Val} : sortedVal v = .any .null ↔ v = .any .null := by
  cases v with
  | any a => simp [sortedVal, sorted_null]
  | _ => simp [sortedVal]

theorem sorted_str {v : Val} {s : String} : sortedVal v = .str s ↔ v = .str s := by
  cases v <;> simp [sortedVal]

theorem sorted_bool {v : Val} {b : Bool} : sortedVal v = .bool b ↔ v = .bool b := by
  cases v <;> simp [sortedVal]

theorem sorted_empty (v : Val) : isEmpty (sortedVal v) = isEmpty v := (isEmpty_rel (sortedVal_reordered v)).symm

theorem sorted_omitted (f : Field) (v : Val) : omitted f (sortedVal v) = omitted f v :=
  (omitted_rel (sortedVal_reordered v)).symm

theorem sorted_keys (v : Val) : (keysOf (sortedVal v)).Perm (keysOf v) := by
  cases v with
  | map ms =>
    simp only [sortedVal, keysOf]
    have := sortKeys_keys (sortedEntries ms)
    rwa [sortedEntries_keys] at this
  | _ => exact .refl _

theorem sorted_structOf (s : Struct) (val : String → Val) :
    sortedVal (structOf s val) = structOf s (fun go => sortedVal (val go)) := by
  simp [structOf, sortedVal, sortedEntries_map, Function.comp_def]

theorem sorted_explicit {s : Struct} {f : Field} {v : Val} : ExplicitNull s f (sortedVal v) ↔ ExplicitNull s f v := by
  simp [ExplicitNull, sorted_any_null]

theorem Spec.Omitted.sorted {s : Struct} {val : String → Val} {k : String} (h : Omitted s val k) :
    Omitted s (fun go => sortedVal (val go)) k := by
  obtain ⟨f, hf, hk, ho⟩ := h
  exact ⟨f, hf, hk, by rw [sorted_omitted]; exact ho⟩

theorem Spec.Written.sorted {s : Struct} {val : String → Val} {k : String} (h : Written s val k) :
    Written s (fun go => sortedVal (val go)) k := by
  obtain ⟨f, hf, hk, ho⟩ := h
  exact ⟨f, hf, hk, by rw [sorted_omitted]; exact ho⟩

theorem sorted_fieldIn (fs : List (String × Val)) (go : String) : fieldIn (sortedEntries fs) go = sortedVal (fieldIn fs go) := by
  unfold fieldIn
  induction fs with
  | nil => rfl
  | cons p fs ih =>
    obtain ⟨k, v⟩ := p
    simp only [sortedEntries, GoMap.get?]
    split
    · rfl
    · exact ih

/-! ## `interface{}` -/

mutual
theorem decodeAny_sorted : ∀ {a : Any}, decodeAny N a = some a → decodeAny N (sortedAny a) = some (sortedAny a)
  | .null, _ => rfl
  | .bool _, _ => rfl
  | .num _, h => h
  | .str _, _ => rfl
  | .arr xs, h => by
    simp only [decodeAny, Option.map_eq_some_iff] at h
    obtain ⟨ys, h, e⟩ := h
    cases e
    simp only [sortedAny, decodeAny, decodeAnys_sorted h, Option.map_some]
  | .obj ms, h => by
    have hd : Distinct (.obj ms) := decodeAny_distinct h
    simp only [decodeAny, Option.map_eq_some_iff] at h
    obtain ⟨ys, h, e⟩ := h
    have hk := decodeAnyMembers_keys h
    simp only [Any.obj.injEq] at e
    rw [lastWins_nodup (by rw [hk]; exact hd.1)] at e
    rw [e] at h
    clear hk e
    have h' := decodeAnyMembers_sorted (a := ms) h
    have hn : (sortKeys (sortedMembers ms)).map Prod.fst |>.Nodup := by
      rw [(sortKeys_keys _).nodup_iff, sortedMembers_keys]
      exact hd.1
    simp only [sortedAny, decodeAny]
    rw [decodeAnyMembers_stable (N := N) (M := sortKeys (sortedMembers ms))]
    · rw [Option.map_some, lastWins_nodup hn]
    · intro p hp
      have hp := (sortKeys_perm _).mem_iff.1 hp
      rw [decodeAnyMembers_mapAll] at h'
      obtain ⟨q, hq, e⟩ := mapAll_from h' p hp
      rw [Option.map_eq_some_iff] at e
      obtain ⟨x, hx, rfl⟩ := e
      have hnn : ((sortedMembers ms).map Prod.fst).Nodup := by rw [sortedMembers_keys]; exact hd.1
      have : q = (q.1, x) := by
        have h1 := GoMap.get?_of_mem (m := sortedMembers ms) hnn hq
        have h2 := GoMap.get?_of_mem (m := sortedMembers ms) hnn hp
        rw [h1] at h2
        cases h2
        rfl
      rw [this] at hx
      exact hx
theorem decodeAnys_sorted : ∀ {a : List Any}, decodeAnys N a = some a → decodeAnys N (sortedAnys a) = some (sortedAnys a)
  | [], _ => rfl
  | x :: xs, h => by
    simp only [decodeAnys] at h
    split at h
    · rename_i y ys h1 h2
      cases h
      simp only [sortedAnys, decodeAnys, decodeAny_sorted h1, decodeAnys_sorted h2]
    · cases h
theorem decodeAnyMembers_sorted : ∀ {a : List (String × Any)}, decodeAnyMembers N a = some a →
    decodeAnyMembers N (sortedMembers a) = some (sortedMembers a)
  | [], _ => rfl
  | (k, x) :: xs, h => by
    simp only [decodeAnyMembers] at h
    split at h
    · rename_i y ys h1 h2
      cases h
      simp only [sortedMembers, decodeAnyMembers, decodeAny_sorted h1, decodeAnyMembers_sorted h2]
    · cases h
end

mutual
theorem reordered_literals : ∀ {a b : Any}, Reordered Eq a b → ∀ l ∈ literals b, l ∈ literals a
  | .null, _, h => by cases h; exact fun _ h => h
  | .bool _, _, h => by cases h; exact fun _ h => h
  | .str _, _, h => by cases h; exact fun _ h => h
  | .num _, _, h => by obtain ⟨_, rfl, rfl⟩ := h; exact fun _ h => h
  | .arr xs, _, h => by
    obtain ⟨ys, rfl, h⟩ := h
    exact reorderedList_literals h
  | .obj ms, _, h => by
    obtain ⟨ps, ns, rfl, h, hp⟩ := h
    intro l hl
    refine reorderedMembers_literals h l ?_
    obtain ⟨k, x, hpm, hl⟩ := Meta.literals_obj.1 hl
    exact Meta.literals_obj.2 ⟨k, x, hp.mem_iff.2 hpm, hl⟩
theorem reorderedList_literals : ∀ {a b : List Any}, ReorderedList Eq a b → ∀ l ∈ literalsList b, l ∈ literalsList a
  | [], _, h => by cases h; exact fun _ h => h
  | x :: xs, _, h => by
    obtain ⟨y, ys, rfl, h1, h2⟩ := h
    intro l hl
    simp only [literalsList, List.mem_append] at hl ⊢
    rcases hl with hl | hl
    · exact .inl (reordered_literals h1 l hl)
    · exact .inr (reorderedList_literals h2 l hl)
theorem reorderedMembers_literals : ∀ {a b : List (String × Any)}, ReorderedMembers Eq a b →
    ∀ l ∈ literalsMembers b, l ∈ literalsMembers a
  | [], _, h => by cases h; exact fun _ h => h
  | (_, x) :: xs, _, h => by
    obtain ⟨y, ys, rfl, h1, h2⟩ := h
    intro l hl
    simp only [literalsMembers, List.mem_append] at hl ⊢
    rcases hl with hl | hl
    · exact .inl (reordered_literals h1 l hl)
    · exact .inr (reorderedMembers_literals h2 l hl)
end

theorem decodeAny_reads {a b : Any} (h : Reordered Eq a b) (ha : decodeAny N a ≠ none) : decodeAny N b ≠ none := by
  obtain ⟨c, hc⟩ := Option.ne_none_iff_exists'.1 ha
  have hf := Meta.decodeAny_floats hc
  obtain ⟨d, hd⟩ := decodeAny_literals (N := N) b
    (fun l hl => Option.ne_none_iff_exists'.1 (hf l (reordered_literals h l hl)))
  rw [hd]
  intro h
  cases h

/-! ## Values -/

/-- The raw copy that a parameter has of its schema or content reads as the same with its maps in order. -/
def rawSorted (T : Table) (N : Nums) (fs : List (String × Val)) : Prop := fs.map Prod.fst = V30.sParameter.names →
  (∀ b, fieldIn fs "SchemaXORContent" = xorSchema b → ∃ w, decode T N (.ptr (.named "SchemaOrRef")) (sortedAny b) = some w ∧
    Same (sortedVal (fieldIn fs "Schema")) w) ∧
  (∀ b, fieldIn fs "SchemaXORContent" = xorContent b → ∃ w, decode T N (.map (.named "MediaType")) (sortedAny b) = some w ∧
    Same (sortedVal (fieldIn fs "Content")) w)

theorem sorted_xorSchema (b : Any) : sortedVal (xorSchema b) = xorSchema (sortedAny b) := rfl
theorem sorted_xorContent (b : Any) : sortedVal (xorContent b) = xorContent (sortedAny b) := rfl

theorem sorted_location (i : String) (v : Val) : sortedVal (location i v) = location i (sortedVal v) := by
  have h : ∀ p : Prop, [Decidable p] → sortedVal (if p then v else .nil) = if p then sortedVal v else .nil := by
    intro p _
    split <;> rfl
  simp only [location, sortedVal, sortedEntries, h]

theorem encode_sorted {ty : Ty} {v : Val} {a : Any} (h : encode T ty v = some a) :
    ∃ b, encode T ty (sortedVal v) = some b ∧ Reordered Eq a b := by
  have := encode_rel (T := T) (sizeOf v) v (sortedVal v) ty (Nat.le_refl _) (sortedVal_reordered v)
  rw [h] at this
  cases e : encode T ty (sortedVal v) with
  | none => rw [e] at this; exact this.elim
  | some b => rw [e] at this; exact ⟨b, rfl, this⟩

theorem writable_sorted {Ok : String → String → Val → Prop} (hOk : ∀ u go v, Ok u go v → Ok u go (sortedVal v)) {ty : Ty} {v : Val}
    (h : Writable T N Ok ty v) (hx : Everywhere (rawSorted T N) v) : Writable T N Ok ty (sortedVal v) := by
  induction h with
  | any h => exact .any (decodeAny_sorted h)
  | bool b => exact .bool b
  | str s => exact .str s
  | int h => exact .int h
  | float h => exact .float h
  | nilPtr t => exact .nilPtr t
  | ptr ht h1 h2 h ih =>
    exact .ptr ht (fun e => h1 (sorted_nil.1 e)) (fun e => h2 (sorted_any_null.1 e)) (ih hx)
  | nilSlice t => exact .nilSlice t
  | @slice t vs h ih =>
    simp only [sortedVal, sortedVals_map]
    refine .slice ?_
    intro w hw
    obtain ⟨v, hv, rfl⟩ := List.mem_map.1 hw
    exact ih v hv (hx.list hv)
  | nilMap t => exact .nilMap t
  | @map t ms hk h ih =>
    simp only [sortedVal]
    refine .map ?_ ?_
    · rw [(sortKeys_keys _).nodup_iff, sortedEntries_keys]
      exact hk
    · intro k w hw
      have hw := (sortKeys_perm _).mem_iff.1 hw
      rw [sortedEntries_map] at hw
      obtain ⟨p, hp, e⟩ := List.mem_map.1 hw
      cases e
      exact ih p.1 p.2 hp (hx.map hp)
  | enum hn h => exact .enum hn h
  | @plain n s hn hs hb val hf hp hpk ha hak hone hlow hnot ihf ihp iha =>
    rw [sorted_structOf]
    refine .plain hn hs hb _ ?_ ?_ ?_ ?_ ?_ ?_ ?_ ?_
    · intro f hff hne
      exact ihf f hff (fun h => hne (sorted_explicit.2 h)) (hx.field (field_name hff))
    · intro q hq
      exact ihp q hq (hx.field (pattern_name hq))
    · intro q hq k hk
      exact hpk q hq k ((sorted_keys _).mem_iff.1 hk)
    · intro a haa
      exact iha a haa (hx.field (additional_name haa))
    · intro a haa k hk
      exact hak a haa k ((sorted_keys _).mem_iff.1 hk)
    · intro a b e
      rcases hone a b e with ⟨h1, h2⟩ | ⟨h1, h2⟩
      · exact .inl ⟨h1.sorted, h2.sorted⟩
      · exact .inr ⟨h1.sorted, h2.sorted⟩
    · intro c hc
      obtain ⟨t, h1, h2⟩ := hlow c hc
      exact ⟨t, sorted_str.2 h1, h2⟩
    · intro t ht
      obtain ⟨m, sm, k, h1, h2, h3, h4⟩ := hnot t ht
      exact ⟨m, sm, k, h1, h2, h3, h4.sorted⟩
  | @union n s hn hs go t v ho hv h hok ih =>
    have e : sortedVal (.struct (s.oneOf.map (fun h => (h.go, if h.go = go then v else .nil)))) =
        .struct (s.oneOf.map (fun h => (h.go, if h.go = go then sortedVal v else .nil))) := by
      simp only [sortedVal, sortedEntries_map, List.map_map, Function.comp_def]
      congr 2
      funext h
      split <;> rfl
    rw [e]
    refine .union hn hs ho (fun e => hv (sorted_nil.1 e)) (ih ?_) (hOk _ _ _ hok)
    exact hx.struct (List.mem_map.2 ⟨_, ho, by simp only [if_true]; rfl⟩)
  | http hn val hf hp hpk hs ihf ihp =>
    rw [sorted_structOf]
    refine .http hn _ ?_ (ihp (hx.field (by decide))) (fun k hk => hpk k ((sorted_keys _).mem_iff.1 hk)) ?_
    · intro f hff
      exact ihf f hff (hx.field (field_name hff))
    · rcases hs with ⟨h1, h2, h3⟩ | ⟨h1, h2, h3, h4⟩
      · refine .inl ⟨sorted_str.2 h1, ?_, sorted_nil.2 h3⟩
        rcases h2 with h2 | h2 <;> rw [h2]
        · exact .inl rfl
        · exact .inr rfl
      · refine .inr ⟨fun e => h1 (sorted_str.1 e), sorted_nil.2 h2, sorted_nil.2 h3, ?_⟩
        rcases h4 with h2 | h2 <;> rw [h2]
        · exact .inl rfl
        · exact .inr rfl
  | @security hn val hf hp hpk go t ho hv h hothers ihf ihp ih =>
    rw [sorted_structOf]
    refine .security hn _ ?_ (ihp (hx.field (by decide))) (fun k hk => hpk k ((sorted_keys _).mem_iff.1 hk)) ho
      (fun e => hv (sorted_nil.1 e)) (ih (hx.field ?_)) ?_
    · intro f hff
      exact ihf f hff (hx.field (field_name hff))
    · exact oneOf_name ho
    · intro h hh hne
      exact sorted_nil.2 (hothers h hh hne)
  | @parameter hn val hf hp hpk a hxx i hin hreq hst hl ihf ihp =>
    rw [sorted_structOf]
    have hself := hx.self (by rw [names_of])
    rw [fieldIn_of val (by decide), fieldIn_of val (by decide), fieldIn_of val (by decide)] at hself
    have hS : ∀ {ty : Ty} {v : Val}, encode T ty v = some a → decodeAny N a ≠ none →
        ∃ a', encode T ty (sortedVal v) = some a' ∧ decodeAny N a' ≠ none := by
      intro ty v h1 h2
      obtain ⟨a', h3, h4⟩ := encode_sorted h1
      exact ⟨a', h3, decodeAny_reads h4 h2⟩
    have hA : decodeAny N a = some a → decodeAny N a ≠ none := by
      intro h e; rw [e] at h; cases h
    have hxx' : ∃ a', (sortedVal (val "Schema") ≠ .nil ∧ isEmpty (sortedVal (val "Content")) = true ∧
          encode T (.ptr (.named "SchemaOrRef")) (sortedVal (val "Schema")) = some a' ∧
          ((sortedVal (val "SchemaXORContent") = .nil ∧ decodeAny N a' ≠ none) ∨
            (sortedVal (val "SchemaXORContent") = xorSchema a' ∧ decodeAny N a' = some a') ∨
            (decodeAny N a' ≠ none ∧ ∃ b w, sortedVal (val "SchemaXORContent") = xorSchema b ∧ decodeAny N b = some b ∧
              decode T N (.ptr (.named "SchemaOrRef")) b = some w ∧ Same (sortedVal (val "Schema")) w))) ∨
        (sortedVal (val "Schema") = .nil ∧ isEmpty (sortedVal (val "Content")) = false ∧
          encode T (.map (.named "MediaType")) (sortedVal (val "Content")) = some a' ∧
          ((sortedVal (val "SchemaXORContent") = .nil ∧ decodeAny N a' ≠ none) ∨
            (sortedVal (val "SchemaXORContent") = xorContent a' ∧ decodeAny N a' = some a') ∨
            (decodeAny N a' ≠ none ∧ ∃ b w, sortedVal (val "SchemaXORContent") = xorContent b ∧ decodeAny N b = some b ∧
              decode T N (.map (.named "MediaType")) b = some w ∧ Same (sortedVal (val "Content")) w))) := by
      rcases hxx with ⟨h1, h2, h3, h4⟩ | ⟨h1, h2, h3, h4⟩
      · have hne : decodeAny N a ≠ none := by
          rcases h4 with ⟨_, h⟩ | ⟨_, h⟩ | ⟨h, _⟩
          · exact h
          · exact hA h
          · exact h
        obtain ⟨a', h5, h6⟩ := hS h3 hne
        refine ⟨a', .inl ⟨fun e => h1 (sorted_nil.1 e), by rw [sorted_empty]; exact h2, h5, ?_⟩⟩
        rcases h4 with ⟨h, _⟩ | ⟨h, hb⟩ | ⟨_, b, _, h, hb, _⟩
        · exact .inl ⟨sorted_nil.2 h, h6⟩
        · obtain ⟨w, h7, h8⟩ := hself.1 _ h
          exact .inr (.inr ⟨h6, _, w, by rw [h, sorted_xorSchema], decodeAny_sorted hb, h7, h8⟩)
        · obtain ⟨w, h7, h8⟩ := hself.1 _ h
          exact .inr (.inr ⟨h6, _, w, by rw [h, sorted_xorSchema], decodeAny_sorted hb, h7, h8⟩)
      · have hne : decodeAny N a ≠ none := by
          rcases h4 with ⟨_, h⟩ | ⟨_, h⟩ | ⟨h, _⟩
          · exact h
          · exact hA h
          · exact h
        obtain ⟨a', h5, h6⟩ := hS h3 hne
        refine ⟨a', .inr ⟨sorted_nil.2 h1, by rw [sorted_empty]; exact h2, h5, ?_⟩⟩
        rcases h4 with ⟨h, _⟩ | ⟨h, hb⟩ | ⟨_, b, _, h, hb, _⟩
        · exact .inl ⟨sorted_nil.2 h, h6⟩
        · obtain ⟨w, h7, h8⟩ := hself.2 _ h
          exact .inr (.inr ⟨h6, _, w, by rw [h, sorted_xorContent], decodeAny_sorted hb, h7, h8⟩)
        · obtain ⟨w, h7, h8⟩ := hself.2 _ h
          exact .inr (.inr ⟨h6, _, w, by rw [h, sorted_xorContent], decodeAny_sorted hb, h7, h8⟩)
    obtain ⟨a', hxx'⟩ := hxx'
    refine .parameter hn _ ?_ (ihp (hx.field (by decide))) (fun k hk => hpk k ((sorted_keys _).mem_iff.1 hk)) hxx'
      (sorted_str.2 hin) (fun e => sorted_bool.2 (hreq e)) ?_ ?_
    · intro f hff hne
      exact ihf f hff (fun h => hne (sorted_explicit.2 h)) (hx.field (field_name hff))
    · rcases hst with h | ⟨st, h1, h2⟩
      · exact .inl (sorted_nil.2 h)
      · exact .inr ⟨st, h1, sorted_str.2 h2⟩
    · rcases hl with h | ⟨h1, h2⟩ | ⟨h1, h2⟩
      · exact .inl (sorted_nil.2 h)
      · refine .inr (.inl ⟨h1, ?_⟩)
        rw [h2, sorted_location]
        rfl
      · refine .inr (.inr ⟨h1, ?_⟩)
        rw [h2, sorted_location]
        rfl

/-- A value that can be written and read back has no key twice in a map. -/
theorem writable_keysOnce {Ok : String → String → Val → Prop} {ty : Ty} {v : Val} (h : Writable T N Ok ty v) : KeysOnce v := by
  have hfs : ∀ fs : List (String × Val), (∀ p ∈ fs, KeysOnce p.2) → KeysOnceEntries fs := by
    intro fs h
    induction fs with
    | nil => trivial
    | cons p fs ih =>
      obtain ⟨k, v⟩ := p
      exact ⟨h _ List.mem_cons_self, ih fun q hq => h q (List.mem_cons_of_mem _ hq)⟩
  have hvs : ∀ vs : List Val, (∀ p ∈ vs, KeysOnce p) → KeysOnceAll vs := by
    intro vs h
    induction vs with
    | nil => trivial
    | cons p vs ih => exact ⟨h _ List.mem_cons_self, ih fun q hq => h q (List.mem_cons_of_mem _ hq)⟩
  have hnull : ∀ {s : Struct} {f : Field} {v : Val}, (¬ExplicitNull s f v → KeysOnce v) → KeysOnce v := by
    intro s f v h
    by_cases e : ExplicitNull s f v
    · rw [e.2]; trivial
    · exact h e
  induction h with
  | any h => exact decodeAny_distinct h
  | bool b => trivial
  | str s => trivial
  | int h => trivial
  | float h => trivial
  | nilPtr t => trivial
  | ptr ht h1 h2 h ih => exact ih
  | nilSlice t => trivial
  | slice h ih => exact hvs _ ih
  | nilMap t => trivial
  | map hk h ih => exact ⟨hk, hfs _ fun p hp => ih p.1 p.2 hp⟩
  | enum hn h => trivial
  | @plain n s hn hs hb val hf hp hpk ha hak hone hlow hnot ihf ihp iha =>
    refine hfs _ ?_
    intro p hpm
    obtain ⟨go, hgo, rfl⟩ := List.mem_map.1 hpm
    unfold Struct.names at hgo
    rw [hs.1, hs.2] at hgo
    simp only [List.mem_append, List.mem_map, List.map_nil, List.append_nil] at hgo
    rcases hgo with (⟨f, hf, rfl⟩ | ⟨q, hq, rfl⟩) | hgo
    · exact hnull (ihf f hf)
    · exact ihp q hq
    · cases haa : s.additional with
      | none => rw [haa] at hgo; cases hgo
      | some a =>
        rw [haa] at hgo
        cases List.mem_singleton.1 hgo
        exact iha a haa
  | union hn hs ho hv h hok ih =>
    refine hfs _ ?_
    intro p hpm
    obtain ⟨e, _, rfl⟩ := List.mem_map.1 hpm
    simp only
    split
    · exact ih
    · trivial
  | http hn val hf hp hpk hs ihf ihp =>
    refine hfs _ ?_
    intro p hpm
    obtain ⟨go, hgo, rfl⟩ := List.mem_map.1 hpm
    unfold Struct.names at hgo
    simp only [List.mem_append, List.mem_map] at hgo
    rcases hgo with (((⟨f, hf, rfl⟩ | hgo) | ⟨e, he, rfl⟩) | ⟨q, hq, rfl⟩) | hgo
    · exact ihf f hf
    · simp [V30.sHTTPSecurityScheme] at hgo
    · simp only [V30.sHTTPSecurityScheme, List.mem_cons, List.not_mem_nil, or_false] at he
      rcases he with rfl | rfl
      · rcases hs with ⟨_, h | h, _⟩ | ⟨_, _, h, _⟩ <;> simp only [h] <;> trivial
      · rcases hs with ⟨_, _, h⟩ | ⟨_, _, _, h | h⟩ <;> simp only [h]
        · trivial
        · trivial
        · exact ⟨trivial, trivial⟩
    · simp only [V30.sHTTPSecurityScheme, List.mem_cons, List.not_mem_nil, or_false] at hq
      subst hq
      exact ihp
    · simp [V30.sHTTPSecurityScheme] at hgo
  | @security hn val hf hp hpk go t ho hv h hothers ihf ihp ih =>
    refine hfs _ ?_
    intro p hpm
    obtain ⟨go', hgo, rfl⟩ := List.mem_map.1 hpm
    unfold Struct.names at hgo
    simp only [List.mem_append, List.mem_map] at hgo
    rcases hgo with (((⟨f, hf, rfl⟩ | hgo) | ⟨e, he, rfl⟩) | ⟨q, hq, rfl⟩) | hgo
    · exact ihf f hf
    · simp [V31.sSecurityScheme] at hgo
    · by_cases hg : e.go = go
      · rw [hg]; exact ih
      · simp only [hothers e he hg]; trivial
    · simp only [V31.sSecurityScheme, List.mem_cons, List.not_mem_nil, or_false] at hq
      subst hq
      exact ihp
    · simp [V31.sSecurityScheme] at hgo
  | @parameter hn val hf hp hpk a hxx i hin hreq hst hl ihf ihp =>
    refine hfs _ ?_
    intro p hpm
    obtain ⟨go, hgo, rfl⟩ := List.mem_map.1 hpm
    unfold Struct.names at hgo
    simp only [List.mem_append, List.mem_map] at hgo
    have hxs : ∀ b, decodeAny N b = some b → KeysOnce (xorSchema b) := fun b hb =>
      ⟨⟨decodeAny_distinct hb, trivial⟩, trivial, trivial⟩
    have hxc : ∀ b, decodeAny N b = some b → KeysOnce (xorContent b) := fun b hb =>
      ⟨trivial, ⟨decodeAny_distinct hb, trivial⟩, trivial⟩
    have hloc : ∀ v, KeysOnce v → KeysOnce (location i v) := by
      intro v hv
      refine ⟨?_, ?_, ?_, ?_, trivial⟩ <;> (split <;> first | exact hv | trivial)
    have hsty : KeysOnce (val "Style") := by
      rcases hst with h | ⟨_, _, h⟩ <;> rw [h] <;> trivial
    have hX : KeysOnce (val "SchemaXORContent") := by
      rcases hxx with ⟨_, _, _, h⟩ | ⟨_, _, _, h⟩
      · rcases h with ⟨h, _⟩ | ⟨h, hb⟩ | ⟨_, b, _, h, hb, _⟩ <;> rw [h]
        · trivial
        · exact hxs _ hb
        · exact hxs _ hb
      · rcases h with ⟨h, _⟩ | ⟨h, hb⟩ | ⟨_, b, _, h, hb, _⟩ <;> rw [h]
        · trivial
        · exact hxc _ hb
        · exact hxc _ hb
    have hL : KeysOnce (val "Location") := by
      rcases hl with h | ⟨_, h⟩ | ⟨_, h⟩ <;> rw [h]
      · trivial
      · exact hloc _ ⟨hsty, trivial⟩
      · exact hloc _ trivial
    rcases hgo with (((⟨f, hf, rfl⟩ | ⟨e, he, rfl⟩) | hgo) | ⟨q, hq, rfl⟩) | hgo
    · exact hnull (ihf f hf)
    · simp only [V30.sParameter, List.mem_cons, List.not_mem_nil, or_false] at he
      rcases he with rfl | rfl
      · exact hX
      · exact hL
    · simp [V30.sParameter] at hgo
    · simp only [V30.sParameter, List.mem_cons, List.not_mem_nil, or_false] at hq
      subst hq
      exact ihp
    · simp [V30.sParameter] at hgo

end Verif
