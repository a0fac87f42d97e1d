import Verif.Lemmas.SortedBack
import Verif.Props.Settles

/-! The structs and numbers of a value whose maps were sorted. -/

namespace Verif
open Codec Spec Grammar

variable {N : Nums}

theorem part_sorted {v w : Val} (h : Part v w) : Part (sortedVal v) (sortedVal w) := by
  induction h with
  | self v => exact .self _
  | list hx _ ih =>
    simp only [sortedVal, sortedVals_map]
    exact .list (List.mem_map.2 ⟨_, hx, rfl⟩) ih
  | @map k x w ms hx _ ih =>
    simp only [sortedVal, sortedEntries_map]
    exact .map (k := k) ((sortKeys_perm _).mem_iff.2 (List.mem_map.2 ⟨_, hx, rfl⟩)) ih
  | @struct k x w fs hx _ ih =>
    simp only [sortedVal, sortedEntries_map]
    exact .struct (k := k) (List.mem_map.2 ⟨_, hx, rfl⟩) ih

theorem part_of_sorted {u w : Val} (h : Part u w) : ∀ {v : Val}, u = sortedVal v → ∃ x, Part v x ∧ w = sortedVal x := by
  induction h with
  | self v => exact fun e => ⟨_, .self _, e⟩
  | @list x w vs hx _ ih =>
    intro v e
    cases v <;> simp only [sortedVal, reduceCtorEq, Val.list.injEq] at e
    rw [e, sortedVals_map] at hx
    obtain ⟨y, hy, rfl⟩ := List.mem_map.1 hx
    obtain ⟨z, hz, e⟩ := ih rfl
    exact ⟨z, .list hy hz, e⟩
  | @map k x w ms hx _ ih =>
    intro v e
    cases v <;> simp only [sortedVal, reduceCtorEq, Val.map.injEq] at e
    rw [e] at hx
    have hx := (sortKeys_perm _).mem_iff.1 hx
    rw [sortedEntries_map] at hx
    obtain ⟨y, hy, ey⟩ := List.mem_map.1 hx
    cases ey
    obtain ⟨z, hz, e⟩ := ih rfl
    exact ⟨z, .map hy hz, e⟩
  | @struct k x w ms hx _ ih =>
    intro v e
    cases v <;> simp only [sortedVal, reduceCtorEq, Val.struct.injEq] at e
    rw [e, sortedEntries_map] at hx
    obtain ⟨y, hy, ey⟩ := List.mem_map.1 hx
    cases ey
    obtain ⟨z, hz, e⟩ := ih rfl
    exact ⟨z, .struct hy hz, e⟩

/-- The structs of a sorted value are those of the value, sorted. -/
theorem everywhere_sorted {P : List (String × Val) → Prop} {v : Val} :
    Everywhere P (sortedVal v) ↔ Everywhere (fun fs => P (sortedEntries fs)) v := by
  constructor
  · intro h fs hp
    have := part_sorted hp
    simp only [sortedVal] at this
    exact h _ this
  · intro h gs hp
    obtain ⟨x, hx, e⟩ := part_of_sorted hp rfl
    cases x <;> simp only [sortedVal, reduceCtorEq, Val.struct.injEq] at e
    rw [e]
    exact h _ hx

theorem ascending_part {v w : Val} (h : Part v w) (ha : AscendingVal v) : AscendingVal w := by
  induction h with
  | self v => exact ha
  | list hx _ ih => exact ih (ascendingVals_iff.1 ha _ hx)
  | map hx _ ih => exact ih (ascendingEntries_iff.1 ha.2 _ hx)
  | struct hx _ ih => exact ih (ascendingEntries_iff.1 ha _ hx)

theorem sorted_located {v : Val} (h : Everywhere located v) : Everywhere located (sortedVal v) := by
  rw [everywhere_sorted]
  intro fs hp e
  rw [sortedEntries_keys] at e
  rw [sorted_fieldIn]
  exact fun e' => h fs hp e (sorted_nil.1 e')

theorem sorted_noDerived {v : Val} (h : Everywhere noDerived v) : Everywhere noDerived (sortedVal v) := by
  rw [everywhere_sorted]
  intro fs hp go hgo
  rw [sorted_fieldIn]
  exact sorted_nil.2 (h fs hp go hgo)

/-- If the raw copies of the sorted value are such, then they read as the sorted values. -/
theorem clean_rawSorted {v : Val} (h : Everywhere (clean30 N) (sortedVal v)) : Everywhere (rawSorted V30.table N) v := by
  rw [everywhere_sorted] at h
  intro fs hp e
  have hc : clean30 N (sortedEntries fs) := h fs hp
  unfold clean30 at hc
  rw [sortedEntries_keys] at hc
  simp only [sorted_fieldIn] at hc
  constructor
  · intro b hb
    rw [hb, sorted_xorSchema] at hc
    rcases hc e with ⟨b', e', _, _, hr, _⟩ | ⟨b', e', _⟩
    · simp only [xorSchema, Val.struct.injEq, List.cons.injEq, Prod.mk.injEq, true_and, and_true, Val.any.injEq] at e'
      rw [e']
      exact hr
    · simp [xorSchema, xorContent] at e'
  · intro b hb
    rw [hb, sorted_xorContent] at hc
    rcases hc e with ⟨b', e', _⟩ | ⟨b', e', _, _, hr, _⟩
    · simp [xorSchema, xorContent] at e'
    · simp only [xorContent, Val.struct.injEq, List.cons.injEq, Prod.mk.injEq, true_and, and_true, Val.any.injEq] at e'
      rw [e']
      exact hr

theorem noDerived_rawSorted {v : Val} (h : Everywhere noDerived v) : Everywhere (rawSorted V30.table N) v := by
  intro fs hp _
  have := h fs hp "SchemaXORContent" (by decide)
  constructor <;> (intro b hb; rw [this] at hb; cases hb)

theorem ascending_xorSchema {b : Any} : AscendingVal (xorSchema b) → AscendingAny b := fun h => h.1.1
theorem ascending_xorContent {b : Any} : AscendingVal (xorContent b) → AscendingAny b := fun h => h.2.1.1

theorem ascending_field {fs : List (String × Val)} (h : AscendingEntries fs) (go : String) : AscendingVal (fieldIn fs go) := by
  unfold fieldIn
  cases e : GoMap.get? fs go with
  | none => trivial
  | some x => exact ascendingEntries_iff.1 h _ (get?_mem e)

theorem clean_rawIn {v : Val} (ha : AscendingVal v) (h : Everywhere (clean30 N) v) : Everywhere (rawIn AscendingAny) v := by
  intro fs hp e
  have hf := ascending_field (ascending_part hp ha) "SchemaXORContent"
  constructor
  · intro en
    rcases h fs hp e with ⟨b, hb, _⟩ | ⟨b, hb, _⟩ <;> rw [hb] at en <;> cases en
  · rintro b (hb | hb) <;> rw [hb] at hf
    · exact ascending_xorSchema hf
    · exact ascending_xorContent hf

theorem numbersOfFields_iff {fs : List (String × Val)} {l : String} :
    l ∈ numbersOfFields fs ↔ ∃ p ∈ fs, l ∈ numbersOf p.2 := by
  induction fs with
  | nil => simp [numbersOfFields]
  | cons p fs ih => obtain ⟨k, v⟩ := p; simp [numbersOfFields, ih]

mutual
theorem numbers_sorted : ∀ (v : Val) (l : String), l ∈ numbersOf (sortedVal v) → l ∈ numbersOf v
  | .nil, _, h => h
  | .bool _, _, h => h
  | .str _, _, h => h
  | .num _, _, h => h
  | .any a, l, h => reordered_literals (sortedAny_reordered a) l h
  | .list vs, l, h => numbersList_sorted vs l h
  | .map ms, l, h => by
    simp only [sortedVal, numbersOf] at h
    obtain ⟨p, hp, hl⟩ := numbersOfFields_iff.1 h
    exact numbersFields_sorted ms l (numbersOfFields_iff.2 ⟨p, (sortKeys_perm _).mem_iff.1 hp, hl⟩)
  | .struct fs, l, h => numbersFields_sorted fs l h
theorem numbersList_sorted : ∀ (vs : List Val) (l : String), l ∈ numbersOfList (sortedVals vs) → l ∈ numbersOfList vs
  | [], _, h => h
  | v :: vs, l, h => by
    simp only [sortedVals, numbersOfList, List.mem_append] at h ⊢
    exact h.imp (numbers_sorted v l) (numbersList_sorted vs l)
theorem numbersFields_sorted : ∀ (fs : List (String × Val)) (l : String),
    l ∈ numbersOfFields (sortedEntries fs) → l ∈ numbersOfFields fs
  | [], _, h => h
  | (_, v) :: fs, l, h => by
    simp only [sortedEntries, numbersOfFields, List.mem_append] at h ⊢
    exact h.imp (numbers_sorted v l) (numbersFields_sorted fs l)
end

theorem numbersOkMembers_iff {ms : List (String × Any)} : NumbersOkMembers ms ↔ ∀ p ∈ ms, NumbersOk p.2 := by
  induction ms with
  | nil => simp [NumbersOkMembers]
  | cons p ms ih => obtain ⟨k, v⟩ := p; simp [NumbersOkMembers, ih]

theorem numericFields_iff {ms : List (String × Val)} : NumericFields ms ↔ ∀ p ∈ ms, Numeric p.2 := by
  induction ms with
  | nil => simp [NumericFields]
  | cons p ms ih => obtain ⟨k, v⟩ := p; simp [NumericFields, ih]

mutual
theorem numbersOk_sorted : ∀ a : Any, NumbersOk a → NumbersOk (sortedAny a)
  | .null, h => h
  | .bool _, h => h
  | .num _, h => h
  | .str _, h => h
  | .arr xs, h => numbersOkList_sorted xs h
  | .obj ms, h => by
    simp only [sortedAny, NumbersOk]
    rw [numbersOkMembers_iff]
    exact fun p hp => numbersOkMembers_iff.1 (numbersOkMembers_sorted ms h) p ((sortKeys_perm _).mem_iff.1 hp)
theorem numbersOkList_sorted : ∀ xs : List Any, NumbersOkList xs → NumbersOkList (sortedAnys xs)
  | [], h => h
  | x :: xs, h => ⟨numbersOk_sorted x h.1, numbersOkList_sorted xs h.2⟩
theorem numbersOkMembers_sorted : ∀ ms : List (String × Any), NumbersOkMembers ms → NumbersOkMembers (sortedMembers ms)
  | [], h => h
  | (_, x) :: ms, h => ⟨numbersOk_sorted x h.1, numbersOkMembers_sorted ms h.2⟩
end

mutual
theorem numeric_sorted : ∀ v : Val, Numeric v → Numeric (sortedVal v)
  | .nil, h => h
  | .any a, h => numbersOk_sorted a h
  | .bool _, h => h
  | .str _, h => h
  | .num _, h => h
  | .list vs, h => numericList_sorted vs h
  | .map ms, h => by
    simp only [sortedVal, Numeric]
    rw [numericFields_iff]
    exact fun p hp => numericFields_iff.1 (numericFields_sorted ms h) p ((sortKeys_perm _).mem_iff.1 hp)
  | .struct fs, h => numericFields_sorted fs h
theorem numericList_sorted : ∀ vs : List Val, NumericList vs → NumericList (sortedVals vs)
  | [], h => h
  | v :: vs, h => ⟨numeric_sorted v h.1, numericList_sorted vs h.2⟩
theorem numericFields_sorted : ∀ ms : List (String × Val), NumericFields ms → NumericFields (sortedEntries ms)
  | [], h => h
  | (_, v) :: ms, h => ⟨numeric_sorted v h.1, numericFields_sorted ms h.2⟩
end

theorem sorted_ok30 : ∀ u go v, ok30 u go v → ok30 u go (sortedVal v) := fun _ _ _ _ => trivial

theorem sorted_ok31 : ∀ u go v, ok31 u go v → ok31 u go (sortedVal v) := by
  intro u go v h e
  obtain ⟨h1, h2, h3⟩ := h e
  refine ⟨h1, h2, fun e => ?_⟩
  obtain ⟨fs, rfl, hf⟩ := h3 e
  exact ⟨_, rfl, by rw [sortedEntries_map]; exact List.mem_map.2 ⟨_, hf, rfl⟩⟩

/-- In 3.1 sorting keeps a value one that can be written and read back. -/
theorem writable_sorted31 {ty : Ty} {v : Val} (h : Writable V31.table N ok31 ty v) : Writable V31.table N ok31 ty (sortedVal v) :=
  writable_sorted sorted_ok31 h fun fs hp e => absurd (.inl e) (notSpecial31 h fs hp)

end Verif
