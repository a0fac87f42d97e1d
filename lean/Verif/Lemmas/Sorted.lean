import Verif.Sorted
import Verif.Spec.Sorted
import Verif.Lemmas.Order

/-! Sorting the entries of maps. -/

namespace Verif
open Codec Spec

/-! ## Lists -/

theorem insertKey_perm {α : Type} (p : String × α) (l : List (String × α)) : (insertKey p l).Perm (p :: l) := by
  induction l with
  | nil => exact .refl _
  | cons q l ih =>
    unfold insertKey
    split
    · exact (List.Perm.cons q ih).trans (List.Perm.swap p q l)
    · exact .refl _

theorem sortKeys_perm {α : Type} (l : List (String × α)) : (sortKeys l).Perm l := by
  induction l with
  | nil => exact .refl _
  | cons p l ih => exact (insertKey_perm p _).trans (.cons p ih)

theorem lt_of_not {a b : String} (h : ¬b < a) (hne : a ≠ b) : a < b := Std.lt_of_le_of_ne h hne

theorem insertKey_comm {α : Type} {p q : String × α} (h : p.1 ≠ q.1) (l : List (String × α)) :
    insertKey p (insertKey q l) = insertKey q (insertKey p l) := by
  induction l with
  | nil =>
    simp only [insertKey]
    by_cases h1 : q.1 < p.1
    · rw [if_pos h1, if_neg (String.lt_asymm h1)]
    · rw [if_neg h1, if_pos (lt_of_not h1 h)]
  | cons r l ih =>
    by_cases hq : r.1 < q.1 <;> by_cases hp : r.1 < p.1
    · simp only [insertKey, if_pos hq, if_pos hp, ih]
    · simp only [insertKey, if_pos hq, if_neg hp]
      have : p.1 < q.1 := by
        by_cases e : p.1 = r.1
        · rw [e]; exact hq
        · exact String.lt_trans (lt_of_not hp e) hq
      simp only [if_pos this]
    · simp only [insertKey, if_neg hq, if_pos hp]
      have : q.1 < p.1 := by
        by_cases e : q.1 = r.1
        · rw [e]; exact hp
        · exact String.lt_trans (lt_of_not hq e) hp
      simp only [if_pos this]
    · simp only [insertKey, if_neg hq, if_neg hp]
      by_cases h1 : q.1 < p.1
      · simp only [if_pos h1, if_neg (String.lt_asymm h1)]
      · simp only [if_neg h1, if_pos (lt_of_not h1 h)]

/-- The order in which a map is visited does not matter. -/
theorem sortKeys_eq {α : Type} {l l' : List (String × α)} (h : l.Perm l') (hn : (l.map Prod.fst).Nodup) :
    sortKeys l = sortKeys l' := by
  induction h with
  | nil => rfl
  | cons p h ih =>
    simp only [sortKeys]
    rw [ih (by simpa using (List.nodup_cons.1 hn).2)]
  | swap p q l =>
    simp only [sortKeys]
    apply insertKey_comm
    intro e
    simp only [List.map_cons, List.nodup_cons, List.mem_cons, not_or] at hn
    exact hn.1.1 e
  | trans h1 _ ih1 ih2 => exact (ih1 hn).trans (ih2 ((h1.map Prod.fst).nodup_iff.1 hn))

theorem insertKey_ascending {α : Type} {p : String × α} {l : List (String × α)} (hp : p.1 ∉ l.map Prod.fst)
    (h : Ascending (l.map Prod.fst)) : Ascending ((insertKey p l).map Prod.fst) := by
  induction l with
  | nil => simp [insertKey, Ascending]
  | cons q l ih =>
    simp only [List.map_cons, List.mem_cons, not_or] at hp
    unfold Ascending at h ih ⊢
    simp only [List.map_cons, List.pairwise_cons] at h
    unfold insertKey
    split
    · rename_i hlt
      simp only [List.map_cons, List.pairwise_cons]
      refine ⟨?_, ih hp.2 h.2⟩
      intro k hk
      have := ((insertKey_perm p l).map Prod.fst).mem_iff.1 hk
      simp only [List.map_cons, List.mem_cons] at this
      rcases this with rfl | this
      · exact hlt
      · exact h.1 k this
    · rename_i hlt
      have hlt := lt_of_not hlt hp.1
      simp only [List.map_cons, List.pairwise_cons, List.mem_cons]
      refine ⟨?_, h.1, h.2⟩
      rintro k (rfl | hk)
      · exact hlt
      · exact String.lt_trans hlt (h.1 k hk)

theorem sortKeys_ascending {α : Type} {l : List (String × α)} (hn : (l.map Prod.fst).Nodup) :
    Ascending ((sortKeys l).map Prod.fst) := by
  induction l with
  | nil => exact .nil
  | cons p l ih =>
    simp only [List.map_cons, List.nodup_cons] at hn
    apply insertKey_ascending _ (ih hn.2)
    intro h
    exact hn.1 (((sortKeys_perm l).map Prod.fst).mem_iff.1 h)

theorem Spec.Ascending.nodup {l : List String} (h : Ascending l) : l.Nodup :=
  List.Pairwise.imp (fun {a b} h e => by subst e; exact String.lt_irrefl _ h) h

theorem sortKeys_id {α : Type} {l : List (String × α)} (h : Ascending (l.map Prod.fst)) : sortKeys l = l := by
  induction l with
  | nil => rfl
  | cons p l ih =>
    unfold Ascending at h ih
    simp only [List.map_cons, List.pairwise_cons] at h
    simp only [sortKeys, ih h.2]
    cases l with
    | nil => rfl
    | cons q l =>
      have := h.1 q.1 (by simp)
      simp only [insertKey, if_neg (String.lt_asymm this)]

theorem sortedMembers_map (ms : List (String × Any)) : sortedMembers ms = ms.map (fun p => (p.1, sortedAny p.2)) := by
  induction ms with
  | nil => rfl
  | cons p ms ih => obtain ⟨k, x⟩ := p; simp [sortedMembers, ih]

theorem sortedEntries_map (ms : List (String × Val)) : sortedEntries ms = ms.map (fun p => (p.1, sortedVal p.2)) := by
  induction ms with
  | nil => rfl
  | cons p ms ih => obtain ⟨k, x⟩ := p; simp [sortedEntries, ih]

theorem sortedAnys_map (ms : List Any) : sortedAnys ms = ms.map sortedAny := by
  induction ms with
  | nil => rfl
  | cons p ms ih => simp [sortedAnys, ih]

theorem sortedVals_map (ms : List Val) : sortedVals ms = ms.map sortedVal := by
  induction ms with
  | nil => rfl
  | cons p ms ih => simp [sortedVals, ih]

theorem sortedMembers_keys (ms : List (String × Any)) : (sortedMembers ms).map Prod.fst = ms.map Prod.fst := by
  simp [sortedMembers_map, Function.comp_def]

theorem sortedEntries_keys (ms : List (String × Val)) : (sortedEntries ms).map Prod.fst = ms.map Prod.fst := by
  simp [sortedEntries_map, Function.comp_def]

theorem sortKeys_keys {α : Type} (l : List (String × α)) : ((sortKeys l).map Prod.fst).Perm (l.map Prod.fst) :=
  (sortKeys_perm l).map _

/-! ## Sorting is another order -/

mutual
theorem sortedAny_reordered : ∀ a : Any, Reordered Eq a (sortedAny a)
  | .null => rfl
  | .bool _ => rfl
  | .num x => ⟨x, rfl, rfl⟩
  | .str _ => rfl
  | .arr xs => ⟨_, rfl, sortedAnys_reordered xs⟩
  | .obj ms => ⟨_, _, rfl, sortedMembers_reordered ms, (sortKeys_perm _).symm⟩
theorem sortedAnys_reordered : ∀ xs : List Any, ReorderedList Eq xs (sortedAnys xs)
  | [] => rfl
  | x :: xs => ⟨_, _, rfl, sortedAny_reordered x, sortedAnys_reordered xs⟩
theorem sortedMembers_reordered : ∀ xs : List (String × Any), ReorderedMembers Eq xs (sortedMembers xs)
  | [] => rfl
  | (_, x) :: xs => ⟨_, _, rfl, sortedAny_reordered x, sortedMembers_reordered xs⟩
end

mutual
theorem sortedVal_reordered : ∀ v : Val, ReorderedVal v (sortedVal v)
  | .nil => rfl
  | .any a => ⟨_, rfl, sortedAny_reordered a⟩
  | .bool _ => rfl
  | .str _ => rfl
  | .num _ => rfl
  | .list vs => ⟨_, rfl, sortedVals_reordered vs⟩
  | .map ms => ⟨_, _, rfl, sortedEntries_reordered ms, (sortKeys_perm _).symm⟩
  | .struct fs => ⟨_, rfl, sortedEntries_reordered fs⟩
theorem sortedVals_reordered : ∀ vs : List Val, ReorderedVals vs (sortedVals vs)
  | [] => rfl
  | v :: vs => ⟨_, _, rfl, sortedVal_reordered v, sortedVals_reordered vs⟩
theorem sortedEntries_reordered : ∀ ms : List (String × Val), ReorderedEntries ms (sortedEntries ms)
  | [] => rfl
  | (_, v) :: ms => ⟨_, _, rfl, sortedVal_reordered v, sortedEntries_reordered ms⟩
end

/-! ## The order before does not matter -/

mutual
theorem sortedAny_eq : ∀ {a b : Any}, Distinct a → Reordered Eq a b → sortedAny a = sortedAny b
  | .null, _, _, h => by cases h; rfl
  | .bool _, _, _, h => by cases h; rfl
  | .num _, _, _, h => by obtain ⟨y, rfl, rfl⟩ := h; rfl
  | .str _, _, _, h => by cases h; rfl
  | .arr xs, _, hd, h => by
    obtain ⟨ys, rfl, h⟩ := h
    simp only [sortedAny, sortedAnys_eq hd h]
  | .obj ms, _, hd, h => by
    obtain ⟨ps, ns, rfl, h, hp⟩ := h
    have e := sortedMembers_eq hd.2 h
    have hp' : (sortedMembers ps).Perm (sortedMembers ns) := by
      rw [sortedMembers_map, sortedMembers_map]
      exact hp.map _
    simp only [sortedAny]
    rw [sortKeys_eq (e ▸ hp') (by rw [sortedMembers_keys]; exact hd.1)]
theorem sortedAnys_eq : ∀ {a b : List Any}, DistinctList a → ReorderedList Eq a b → sortedAnys a = sortedAnys b
  | [], _, _, h => by cases h; rfl
  | x :: xs, _, hd, h => by
    obtain ⟨y, ys, rfl, h1, h2⟩ := h
    simp only [sortedAnys, sortedAny_eq hd.1 h1, sortedAnys_eq hd.2 h2]
theorem sortedMembers_eq : ∀ {a b : List (String × Any)}, DistinctMembers a → ReorderedMembers Eq a b →
    sortedMembers a = sortedMembers b
  | [], _, _, h => by cases h; rfl
  | (_, x) :: xs, _, hd, h => by
    obtain ⟨y, ys, rfl, h1, h2⟩ := h
    simp only [sortedMembers, sortedAny_eq hd.1 h1, sortedMembers_eq hd.2 h2]
end

mutual
theorem sortedVal_eq : ∀ {v w : Val}, KeysOnce v → ReorderedVal v w → sortedVal v = sortedVal w
  | .nil, _, _, h => by cases h; rfl
  | .any a, _, hd, h => by obtain ⟨b, rfl, h⟩ := h; simp only [sortedVal, sortedAny_eq hd h]
  | .bool _, _, _, h => by cases h; rfl
  | .str _, _, _, h => by cases h; rfl
  | .num _, _, _, h => by cases h; rfl
  | .list vs, _, hd, h => by
    obtain ⟨ys, rfl, h⟩ := h
    simp only [sortedVal, sortedVals_eq hd h]
  | .map ms, _, hd, h => by
    obtain ⟨ps, ns, rfl, h, hp⟩ := h
    have e := sortedEntries_eq hd.2 h
    have hp' : (sortedEntries ps).Perm (sortedEntries ns) := by
      rw [sortedEntries_map, sortedEntries_map]
      exact hp.map _
    simp only [sortedVal]
    rw [sortKeys_eq (e ▸ hp') (by rw [sortedEntries_keys]; exact hd.1)]
  | .struct fs, _, hd, h => by
    obtain ⟨gs, rfl, h⟩ := h
    simp only [sortedVal, sortedEntries_eq hd h]
theorem sortedVals_eq : ∀ {v w : List Val}, KeysOnceAll v → ReorderedVals v w → sortedVals v = sortedVals w
  | [], _, _, h => by cases h; rfl
  | x :: xs, _, hd, h => by
    obtain ⟨y, ys, rfl, h1, h2⟩ := h
    simp only [sortedVals, sortedVal_eq hd.1 h1, sortedVals_eq hd.2 h2]
theorem sortedEntries_eq : ∀ {v w : List (String × Val)}, KeysOnceEntries v → ReorderedEntries v w →
    sortedEntries v = sortedEntries w
  | [], _, _, h => by cases h; rfl
  | (_, x) :: xs, _, hd, h => by
    obtain ⟨y, ys, rfl, h1, h2⟩ := h
    simp only [sortedEntries, sortedVal_eq hd.1 h1, sortedEntries_eq hd.2 h2]
end

/-! ## What is sorted -/

theorem ascendingMembers_iff {ms : List (String × Any)} : AscendingMembers ms ↔ ∀ p ∈ ms, AscendingAny p.2 := by
  induction ms with
  | nil => simp [AscendingMembers]
  | cons p ms ih => obtain ⟨k, x⟩ := p; simp [AscendingMembers, ih]

theorem ascendingAnys_iff {ms : List Any} : AscendingAnys ms ↔ ∀ p ∈ ms, AscendingAny p := by
  induction ms with
  | nil => simp [AscendingAnys]
  | cons p ms ih => simp [AscendingAnys, ih]

theorem ascendingEntries_iff {ms : List (String × Val)} : AscendingEntries ms ↔ ∀ p ∈ ms, AscendingVal p.2 := by
  induction ms with
  | nil => simp [AscendingEntries]
  | cons p ms ih => obtain ⟨k, x⟩ := p; simp [AscendingEntries, ih]

theorem ascendingVals_iff {ms : List Val} : AscendingVals ms ↔ ∀ p ∈ ms, AscendingVal p := by
  induction ms with
  | nil => simp [AscendingVals]
  | cons p ms ih => simp [AscendingVals, ih]

mutual
theorem sortedAny_ascending : ∀ {a : Any}, Distinct a → AscendingAny (sortedAny a)
  | .null, _ => trivial
  | .bool _, _ => trivial
  | .num _, _ => trivial
  | .str _, _ => trivial
  | .arr xs, hd => sortedAnys_ascending (a := xs) hd
  | .obj ms, hd => by
    refine ⟨sortKeys_ascending (by rw [sortedMembers_keys]; exact hd.1), ?_⟩
    rw [ascendingMembers_iff]
    intro p hp
    exact ascendingMembers_iff.1 (sortedMembers_ascending (a := ms) hd.2) p ((sortKeys_perm _).mem_iff.1 hp)
theorem sortedAnys_ascending : ∀ {a : List Any}, DistinctList a → AscendingAnys (sortedAnys a)
  | [], _ => trivial
  | _ :: _, hd => ⟨sortedAny_ascending hd.1, sortedAnys_ascending hd.2⟩
theorem sortedMembers_ascending : ∀ {a : List (String × Any)}, DistinctMembers a → AscendingMembers (sortedMembers a)
  | [], _ => trivial
  | (_, _) :: _, hd => ⟨sortedAny_ascending hd.1, sortedMembers_ascending hd.2⟩
end

mutual
theorem sortedVal_ascending : ∀ {v : Val}, KeysOnce v → AscendingVal (sortedVal v)
  | .nil, _ => trivial
  | .any a, hd => sortedAny_ascending (a := a) hd
  | .bool _, _ => trivial
  | .str _, _ => trivial
  | .num _, _ => trivial
  | .list vs, hd => sortedVals_ascending (v := vs) hd
  | .map ms, hd => by
    refine ⟨sortKeys_ascending (by rw [sortedEntries_keys]; exact hd.1), ?_⟩
    rw [ascendingEntries_iff]
    intro p hp
    exact ascendingEntries_iff.1 (sortedEntries_ascending (v := ms) hd.2) p ((sortKeys_perm _).mem_iff.1 hp)
  | .struct fs, hd => sortedEntries_ascending (v := fs) hd
theorem sortedVals_ascending : ∀ {v : List Val}, KeysOnceAll v → AscendingVals (sortedVals v)
  | [], _ => trivial
  | _ :: _, hd => ⟨sortedVal_ascending hd.1, sortedVals_ascending hd.2⟩
theorem sortedEntries_ascending : ∀ {v : List (String × Val)}, KeysOnceEntries v → AscendingEntries (sortedEntries v)
  | [], _ => trivial
  | (_, _) :: _, hd => ⟨sortedVal_ascending hd.1, sortedEntries_ascending hd.2⟩
end

mutual
theorem sortedAny_id : ∀ {a : Any}, AscendingAny a → sortedAny a = a
  | .null, _ => rfl
  | .bool _, _ => rfl
  | .num _, _ => rfl
  | .str _, _ => rfl
  | .arr xs, h => by simp only [sortedAny, sortedAnys_id (a := xs) h]
  | .obj ms, h => by simp only [sortedAny, sortedMembers_id h.2, sortKeys_id h.1]
theorem sortedAnys_id : ∀ {a : List Any}, AscendingAnys a → sortedAnys a = a
  | [], _ => rfl
  | _ :: _, h => by simp only [sortedAnys, sortedAny_id h.1, sortedAnys_id h.2]
theorem sortedMembers_id : ∀ {a : List (String × Any)}, AscendingMembers a → sortedMembers a = a
  | [], _ => rfl
  | (_, _) :: _, h => by simp only [sortedMembers, sortedAny_id h.1, sortedMembers_id h.2]
end

mutual
theorem sortedVal_id : ∀ {v : Val}, AscendingVal v → sortedVal v = v
  | .nil, _ => rfl
  | .any a, h => by simp only [sortedVal, sortedAny_id (a := a) h]
  | .bool _, _ => rfl
  | .str _, _ => rfl
  | .num _, _ => rfl
  | .list vs, h => by simp only [sortedVal, sortedVals_id (v := vs) h]
  | .map ms, h => by simp only [sortedVal, sortedEntries_id h.2, sortKeys_id h.1]
  | .struct fs, h => by simp only [sortedVal, sortedEntries_id (v := fs) h]
theorem sortedVals_id : ∀ {v : List Val}, AscendingVals v → sortedVals v = v
  | [], _ => rfl
  | _ :: _, h => by simp only [sortedVals, sortedVal_id h.1, sortedVals_id h.2]
theorem sortedEntries_id : ∀ {v : List (String × Val)}, AscendingEntries v → sortedEntries v = v
  | [], _ => rfl
  | (_, _) :: _, h => by simp only [sortedEntries, sortedVal_id h.1, sortedEntries_id h.2]
end

end Verif
