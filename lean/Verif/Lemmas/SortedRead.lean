import Verif.Lemmas.SortedParts
import Verif.Lemmas.ClearWritten
import Verif.Lemmas.YamlDoc

/-! The raw copies that parameters of 3.0 have of their schema or content still are copies with their maps in order. -/

namespace Verif
open Codec Spec Grammar

variable {T : Table} {N : Nums}

/-! ## The same value, with its maps in order -/

theorem same_insertKey {k : String} {v w : Val} (h : Same v w) {ms ns : List (String × Val)} (hs : SameEntries ms ns) :
    SameEntries (insertKey (k, v) ms) (insertKey (k, w) ns) := by
  induction ms generalizing ns with
  | nil => cases hs; exact .cons h .nil
  | cons p ms ih => cases hs with
    | cons h1 h2 =>
      simp only [insertKey]
      split
      · exact .cons h1 (ih h2)
      · exact .cons h (.cons h1 h2)

theorem same_sortKeys {ms ns : List (String × Val)} (hs : SameEntries ms ns) : SameEntries (sortKeys ms) (sortKeys ns) := by
  induction ms generalizing ns with
  | nil => cases hs; exact .nil
  | cons p ms ih => cases hs with
    | cons h1 h2 => exact same_insertKey h1 (ih h2)

mutual
theorem same_sorted : ∀ {u w : Val}, Same u w → Same (sortedVal u) (sortedVal w)
  | _, _, .same _ => .same _
  | _, _, .emptyList => .emptyList
  | _, _, .emptyMap => .emptyMap
  | _, _, .list h => .list (sameList_sorted h)
  | _, _, .map h => .map (same_sortKeys (sameEntries_sorted h))
  | _, _, .struct h => .struct (sameEntries_sorted h)
  | _, _, .filled hn h => .filled (by rw [sortedEntries_keys]; exact hn) (sameFilled_sorted h)
theorem sameList_sorted : ∀ {u w : List Val}, SameList u w → SameList (sortedVals u) (sortedVals w)
  | _, _, .nil => .nil
  | _, _, .cons h hs => .cons (same_sorted h) (sameList_sorted hs)
theorem sameEntries_sorted : ∀ {u w : List (String × Val)}, SameEntries u w → SameEntries (sortedEntries u) (sortedEntries w)
  | _, _, .nil => .nil
  | _, _, .cons h hs => .cons (same_sorted h) (sameEntries_sorted hs)
theorem sameFilled_sorted : ∀ {u w : List (String × Val)}, SameFilled u w → SameFilled (sortedEntries u) (sortedEntries w)
  | _, _, .nil => .nil
  | _, _, .cons h hs => .cons (same_sorted h) (sameFilled_sorted hs)
  | _, _, .derived h hs => .derived h (sameFilled_sorted hs)
  | _, _, .style h hs => .style h (sameFilled_sorted hs)
end

/-! ## Reading JSON with its members in order -/

mutual
theorem decodeAny_ascending : ∀ (j a : Any), AscendingAny j → decodeAny N j = some a → AscendingAny a
  | .null, a, _, h => by simp only [decodeAny, Option.some.injEq] at h; rw [← h]; trivial
  | .bool b, a, _, h => by simp only [decodeAny, Option.some.injEq] at h; rw [← h]; trivial
  | .str b, a, _, h => by simp only [decodeAny, Option.some.injEq] at h; rw [← h]; trivial
  | .num x, a, _, h => by
    simp only [decodeAny] at h
    rw [Option.map_eq_some_iff] at h
    obtain ⟨y, hy, rfl⟩ := h
    trivial
  | .arr xs, a, hd, h => by
    simp only [decodeAny] at h
    rw [Option.map_eq_some_iff] at h
    obtain ⟨ys, hy, rfl⟩ := h
    exact decodeAnys_ascending xs ys hd hy
  | .obj ms, a, hd, h => by
    simp only [decodeAny] at h
    rw [Option.map_eq_some_iff] at h
    obtain ⟨ds, hy, rfl⟩ := h
    have hk : Ascending (ds.map Prod.fst) := by rw [decodeAnyMembers_keys hy]; exact hd.1
    rw [lastWins_nodup hk.nodup]
    exact ⟨hk, decodeAnyMembers_ascending ms ds hd.2 hy⟩
theorem decodeAnys_ascending : ∀ (xs ys : List Any), AscendingAnys xs → decodeAnys N xs = some ys → AscendingAnys ys
  | [], ys, _, h => by simp only [decodeAnys, Option.some.injEq] at h; rw [← h]; trivial
  | x :: xs, ys, hd, h => by
    simp only [decodeAnys] at h
    split at h
    · rename_i y zs h1 h2
      cases h
      exact ⟨decodeAny_ascending x y hd.1 h1, decodeAnys_ascending xs zs hd.2 h2⟩
    · cases h
theorem decodeAnyMembers_ascending : ∀ (xs ys : List (String × Any)), AscendingMembers xs →
    decodeAnyMembers N xs = some ys → AscendingMembers ys
  | [], ys, _, h => by simp only [decodeAnyMembers, Option.some.injEq] at h; rw [← h]; trivial
  | (k, x) :: xs, ys, hd, h => by
    simp only [decodeAnyMembers] at h
    split at h
    · rename_i y zs h1 h2
      cases h
      exact ⟨decodeAny_ascending x y hd.1 h1, decodeAnyMembers_ascending xs zs hd.2 h2⟩
    · cases h
end

theorem zero_ascending (T : Table) (t : Ty) : AscendingVal (zero T t) := by
  unfold zero
  split <;> (try split) <;> trivial

theorem madeMap_ascending {es : List (String × Val)} (hk : Ascending (es.map Prod.fst)) (h : ∀ p ∈ es, AscendingVal p.2) :
    AscendingVal (madeMap es) := by
  cases es with
  | nil => trivial
  | cons e es => exact ⟨hk, ascendingEntries_iff.2 h⟩

theorem rememberNull_ascending {s : Struct} {ms : List Member} {go : String} {v : Val} (h : AscendingVal v) :
    AscendingVal (rememberNull s ms (go, v)).2 := by
  unfold rememberNull
  split
  · split
    · trivial
    · exact h
  · exact h

theorem ascending_step {bad : List String} (hC : everyChecks bad = true) (hB : "NonBearer" ∈ bad) {j : Any} (hj : AscendingAny j)
    (ihA : ∀ xs, j = .arr xs → ∀ x ∈ xs, ∀ ty v, tyOk bad ty = true → decode V30.table N ty x = some v → AscendingVal v)
    (ihO : ∀ M, j = .obj M → ∀ p ∈ M, ∀ ty v, tyOk bad ty = true → decode V30.table N ty p.2 = some v → AscendingVal v) :
    ∀ r ty, rankedAt V30.table r ty = true → tyOk bad ty = true → ∀ v, decode V30.table N ty j = some v → AscendingVal v := by
  intro r
  have hT := ranked30
  induction r with
  | zero => intro ty h; simp [rankedAt] at h
  | succ r ihr =>
    intro ty hr hty v hd
    cases ty with
    | any =>
      rw [decode_any, Option.map_eq_some_iff] at hd
      obtain ⟨a, ha, rfl⟩ := hd
      exact decodeAny_ascending j a hj ha
    | bool => rw [decode_bool] at hd; split at hd <;> cases hd <;> trivial
    | str => rw [decode_str] at hd; split at hd <;> cases hd <;> trivial
    | int =>
      rw [decode_int] at hd
      split at hd
      · rw [Option.map_eq_some_iff] at hd
        obtain ⟨a, ha, rfl⟩ := hd
        trivial
      · cases hd; trivial
      · cases hd
    | float =>
      rw [decode_float] at hd
      split at hd
      · rw [Option.map_eq_some_iff] at hd
        obtain ⟨a, ha, rfl⟩ := hd
        trivial
      · cases hd; trivial
      · cases hd
    | ptr t =>
      simp only [tyOk, Bool.and_eq_true] at hty
      by_cases hj : j = .null
      · subst hj
        rw [decode_ptr_null] at hd
        cases hd
        trivial
      · have hd' : decode V30.table N t j = some v := by
          rw [decode_ptr hT hty.1] at hd
          cases j <;> first | exact hd | exact absurd rfl hj
        exact ihr t (by simpa [rankedAt] using hr) hty.2 v hd'
    | slice t =>
      rw [decode_slice] at hd
      split at hd
      · rename_i xs
        rw [Option.map_eq_some_iff] at hd
        obtain ⟨vs, hvs, rfl⟩ := hd
        refine ascendingVals_iff.2 ?_
        intro x hx
        obtain ⟨y, hy, e⟩ := mapAll_from hvs x hx
        exact ihA xs rfl y hy t x hty e
      · cases hd; trivial
      · cases hd
    | map t =>
      rw [decode_map] at hd
      split at hd
      · rename_i ms
        rw [Option.map_eq_some_iff] at hd
        obtain ⟨es, hes, rfl⟩ := hd
        have hk := mapAll_keys' (g := fun p : String × Any => p.1) hes (by
          intro x _ y hy
          rw [Option.map_eq_some_iff] at hy
          obtain ⟨w, _, rfl⟩ := hy
          rfl)
        have hk' : Ascending (es.map Prod.fst) := by rw [hk]; exact hj.1
        rw [lastWins_nodup hk'.nodup]
        refine ⟨hk', ascendingEntries_iff.2 ?_⟩
        intro p hp
        obtain ⟨q, hq, e⟩ := mapAll_from hes p hp
        rw [Option.map_eq_some_iff] at e
        obtain ⟨x, hx, rfl⟩ := e
        exact ihO ms rfl q hq t x hty hx
      · cases hd; trivial
      · cases hd
    | named n =>
      have hnb : n ∉ bad := by simpa [tyOk] using hty
      cases hn : GoMap.get? V30.table n with
      | none => rw [decode_none hn] at hd; cases hd
      | some d =>
        cases d with
        | enum values =>
          rw [decode_enum hn] at hd
          split at hd
          · split at hd <;> cases hd
            trivial
          · split at hd <;> cases hd
            trivial
          · cases hd
        | struct s =>
          have hb : n ≠ "NonBearer" := fun e => hnb (e ▸ hB)
          obtain ⟨c1, c2, c3, c4, c5, c6, c7, _⟩ := everyCheck_iff hC hn hnb hb
          obtain ⟨M, val, rfl, L⟩ := loaded hT hn c1 c2 hd
          have hM : ∀ p ∈ M, ∀ ty v, tyOk bad ty = true → decode V30.table N ty p.2 = some v → AscendingVal v := by
            rcases L.members with e | ⟨_, e⟩
            · exact ihO M e
            · rw [e]; intro p hp; cases hp
          have hMk : Ascending (M.map Prod.fst) := by
            rcases L.members with e | ⟨_, e⟩
            · subst e; exact hj.1
            · rw [e]; exact .nil
          have hes : ∀ (es : List (String × Val)) (t : Ty), tyOk bad t = true →
              ((M.map Prod.fst).Nodup → (es.map Prod.fst).Sublist (M.map Prod.fst)) →
              (∀ k x, (k, x) ∈ es → ∃ a, (k, a) ∈ M ∧ decode V30.table N t a = some x) → AscendingVal (madeMap es) := by
            intro es t ht hs h
            refine madeMap_ascending (hMk.sublist (hs hMk.nodup)) ?_
            rintro ⟨k, x⟩ hp
            obtain ⟨a, ha, e⟩ := h k x hp
            exact hM _ ha t x ht e
          refine ascendingEntries_iff.2 ?_
          intro p hp
          obtain ⟨go, hgo, rfl⟩ := List.mem_map.1 hp
          unfold Struct.names at hgo
          simp only [rankedAt, hn, Bool.and_eq_true, List.all_eq_true] at hr
          simp only [List.mem_append, List.mem_map] at hgo
          rcases hgo with (((⟨f, hf, rfl⟩ | ⟨e, he, rfl⟩) | ⟨e, he, rfl⟩) | ⟨q, hq, rfl⟩) | hgo
          · obtain ⟨rd, hr, e⟩ := L.fields f hf
            simp only
            rw [e]
            apply rememberNull_ascending
            rcases hr with ⟨_, ⟨_, rfl⟩ | ⟨M1, p, M2, e, _, hd, _⟩⟩
            · exact zero_ascending _ _
            · exact hM p (by rw [e]; simp) f.ty rd (c3 f hf) hd
          · exact ihr e.ty (hr.1.2 e he) (c5 e he) _ (L.embeds e he)
          · rcases L.oneOf with h | ⟨e', he', w, hw, _, ha⟩
            · rw [h] at he; cases he
            · simp only
              rw [ha e he]
              split
              · exact ihr e'.ty (hr.2 e' he') (c6 e' he') _ hw
              · trivial
          · obtain ⟨es, e, ⟨_, hs⟩, h⟩ := L.patterns q hq
            simp only
            rw [e]
            exact hes es q.ty (c4 q hq) hs (fun k x hx => (h k x hx).2)
          · cases ha : s.additional with
            | none => rw [ha] at hgo; cases hgo
            | some a =>
              rw [ha] at hgo
              cases List.mem_singleton.1 hgo
              obtain ⟨es, e, ⟨_, hs⟩, h⟩ := L.additional a ha
              simp only
              rw [e]
              exact hes es a.ty (c7 a ha) hs (fun k x hx => (h k x hx).2)

/-- What is read from JSON whose members are in order has its maps in order. -/
theorem decode_ascending {bad : List String} (hC : everyChecks bad = true) (hB : "NonBearer" ∈ bad) (j : Any) (hj : AscendingAny j)
    (ty : Ty) (v : Val) (ht : tyOk bad ty = true) (hd : decode V30.table N ty j = some v) : AscendingVal v := by
  refine ascending_step hC hB hj ?_ ?_ 11 ty (rankedAt_ok ranked30 ht) ht v hd
  · intro xs e x hx ty v ht hd
    have : sizeOf x < sizeOf j := by
      have := List.sizeOf_lt_of_mem hx
      rw [e]; simp; omega
    exact decode_ascending hC hB x (ascendingAnys_iff.1 (by subst e; exact hj) x hx) ty v ht hd
  · intro M e p hp ty v ht hd
    have : sizeOf p.2 < sizeOf j := by
      have := List.sizeOf_lt_of_mem hp
      obtain ⟨k, x⟩ := p
      simp only [Prod.mk.sizeOf_spec] at this
      rw [e]; simp; omega
    exact decode_ascending hC hB p.2 (ascendingMembers_iff.1 (by subst e; exact hj.2) p hp) ty v ht hd
termination_by sizeOf j

/-- A raw copy still is one with its maps in order, if it has one spelling of each field name. -/
theorem raw_sorted (hN : NumsOk N) {ty : Ty} (ht : tyOk otherTypes ty = true) {b : Any} (hc : ClearAs V30.table ty b) {w u : Val}
    (hd : decode V30.table N ty b = some w) (hs : Same u w) :
    ∃ w', decode V30.table N ty (sortedAny b) = some w' ∧ Same (sortedVal u) w' := by
  have h := decode_rel (N := N) (L := Eq) (fun x y e => by rw [e]; exact ⟨rfl, rfl⟩) hc (sortedAny_reordered b)
  rw [hd] at h
  cases e : decode V30.table N ty (sortedAny b) with
  | none => rw [e] at h; exact h.elim
  | some w' =>
    rw [e] at h
    refine ⟨w', rfl, ?_⟩
    have ha := decode_ascending everyChecksSchema (by decide +kernel) _ (sortedAny_ascending hc.1) ty w' ht e
    rw [← sortedVal_id ha, ← sortedVal_eq (writable_keysOnce (schema_writable hN ht hd)) h]
    exact same_sorted hs

/-! ## Reordering keeps one spelling of each field name -/

theorem reordered_obj {L : String → String → Prop} {a : Any} {ns : List (String × Any)} (h : Reordered L a (.obj ns)) :
    ∃ ms, a = .obj ms ∧ PermEach (MemRel L) ms ns := by
  cases a with
  | obj ms =>
    obtain ⟨ns', e, h⟩ := obj_rel.1 h
    cases e
    exact ⟨ms, rfl, h⟩
  | arr xs => obtain ⟨_, e, _⟩ := h; cases e
  | num x => obtain ⟨_, e, _⟩ := h; cases e
  | _ => cases h

theorem permEach_from {α : Type} {R : α → α → Prop} {l l' : List α} (h : PermEach R l l') {b : α} (hb : b ∈ l') :
    ∃ a ∈ l, R a b := by
  obtain ⟨l₁, h1, h2⟩ := h
  have hb := h2.mem_iff.2 hb
  clear h2
  induction h1 with
  | nil => cases hb
  | cons h t ih =>
    rcases List.mem_cons.1 hb with rfl | hb
    · exact ⟨_, List.mem_cons_self, h⟩
    · obtain ⟨a, ha, hr⟩ := ih hb
      exact ⟨a, List.mem_cons_of_mem _ ha, hr⟩

theorem readAs_back {L : String → String → Prop} {ty ty' : Ty} {b b' : Any} (h : ReadAs T ty b ty' b') :
    ∀ {a : Any}, Reordered L a b → ∃ a', ReadAs T ty a ty' a' ∧ Reordered L a' b' := by
  induction h with
  | self => exact fun h => ⟨_, .self, h⟩
  | ptr _ ih => intro a h; obtain ⟨a', h1, h2⟩ := ih h; exact ⟨a', .ptr h1, h2⟩
  | @elem _ _ xs x _ hx _ ih =>
    intro a h
    cases a with
    | arr ys =>
      obtain ⟨zs, e, h⟩ := h
      cases e
      rw [reorderedList_each] at h
      obtain ⟨y, hy, hr⟩ := permEach_from ⟨_, h, .refl _⟩ hx
      obtain ⟨a', h1, h2⟩ := ih hr
      exact ⟨a', .elem hy h1, h2⟩
    | obj ms => obtain ⟨_, _, e, _⟩ := h; cases e
    | num x => obtain ⟨_, e, _⟩ := h; cases e
    | _ => cases h
  | entry hx _ ih =>
    intro a h
    obtain ⟨ms, rfl, hm⟩ := reordered_obj h
    obtain ⟨⟨k, y⟩, hy, e, hr⟩ := permEach_from hm hx
    obtain ⟨a', h1, h2⟩ := ih hr
    exact ⟨a', .entry hy h1, h2⟩
  | alternative hs ht _ ih => intro a h; obtain ⟨a', h1, h2⟩ := ih h; exact ⟨a', .alternative hs ht h1, h2⟩
  | field hs hx hf _ ih =>
    intro a h
    obtain ⟨ms, rfl, hm⟩ := reordered_obj h
    obtain ⟨⟨k, y⟩, hy, e, hr⟩ := permEach_from hm hx
    obtain ⟨a', h1, h2⟩ := ih hr
    cases e
    exact ⟨a', .field hs hy hf h1, h2⟩
  | pattern hs hx hq hk _ ih =>
    intro a h
    obtain ⟨ms, rfl, hm⟩ := reordered_obj h
    obtain ⟨⟨k, y⟩, hy, e, hr⟩ := permEach_from hm hx
    obtain ⟨a', h1, h2⟩ := ih hr
    cases e
    exact ⟨a', .pattern hs hy hq hk h1, h2⟩
  | additional hs hx ha hk _ ih =>
    intro a h
    obtain ⟨ms, rfl, hm⟩ := reordered_obj h
    obtain ⟨⟨k, y⟩, hy, e, hr⟩ := permEach_from hm hx
    obtain ⟨a', h1, h2⟩ := ih hr
    cases e
    exact ⟨a', .additional hs hy ha hk h1, h2⟩

theorem clearAs_reordered {L : String → String → Prop} {ty : Ty} {a b : Any} (hc : ClearAs T ty a) (hd : Distinct b)
    (h : Reordered L a b) : ClearAs T ty b := by
  refine ⟨hd, ?_⟩
  intro n s ns hR hn k₁ x₁ k₂ x₂ f h1 h2 f1 f2
  obtain ⟨a', hR', hr⟩ := readAs_back hR h
  obtain ⟨ms, rfl, hp⟩ := reordered_obj hr
  obtain ⟨⟨k₁', y₁⟩, m1, e1, r1⟩ := permEach_from hp h1
  obtain ⟨⟨k₂', y₂⟩, m2, e2, r2⟩ := permEach_from hp h2
  cases e1
  cases e2
  rcases hc.2 n s ms hR' hn _ _ _ _ f m1 m2 f1 f2 with h | ⟨h, os, e⟩
  · exact .inl h
  · refine .inr ⟨h, ?_⟩
    subst e
    obtain ⟨ns', e', _⟩ := obj_rel.1 r1
    exact ⟨ns', e'⟩

/-- What is read as `interface{}` has one spelling of each field name if the JSON has. -/
theorem decodeAny_clear {ty : Ty} {a b : Any} (hc : ClearAs T ty a) (h : decodeAny N a = some b) : ClearAs T ty b :=
  clearAs_reordered hc (decodeAny_distinct h) (decodeAny_reordered a b hc.1 h)

theorem clearAs_part {ty ty' : Ty} {j j' : Any} (hc : ClearAs T ty j) (h : ReadAs T ty j ty' j') : ClearAs T ty' j' := by
  refine ⟨?_, fun n s ms hR => hc.2 n s ms (readAs_trans h hR)⟩
  have hd := hc.1
  clear hc
  induction h with
  | self => exact hd
  | ptr _ ih => exact ih hd
  | elem hx _ ih => exact ih (distinctList_iff.1 hd _ hx)
  | entry hx _ ih => exact ih (distinctMembers_iff.1 hd.2 _ hx)
  | alternative _ _ _ ih => exact ih hd
  | field _ hx _ _ ih => exact ih (distinctMembers_iff.1 hd.2 _ hx)
  | pattern _ hx _ _ _ ih => exact ih (distinctMembers_iff.1 hd.2 _ hx)
  | additional _ hx _ _ _ ih => exact ih (distinctMembers_iff.1 hd.2 _ hx)

/-! ## The raw copies of a document that was read -/

/-- The raw copy that a parameter has has one spelling of each field name. -/
def clearRaw (fs : List (String × Val)) : Prop := fs.map Prod.fst = V30.sParameter.names →
  (∀ b, fieldIn fs "SchemaXORContent" = xorSchema b → ClearAs V30.table (.ptr (.named "SchemaOrRef")) b) ∧
  (∀ b, fieldIn fs "SchemaXORContent" = xorContent b → ClearAs V30.table (.map (.named "MediaType")) b)

/-- If the raw copies have one spelling of each field name, they are copies also with their maps in order. -/
theorem clean_sorted (hN : NumsOk N) {v : Val} (h : Everywhere (clean30 N) v) (hr : Everywhere clearRaw v) :
    Everywhere (clean30 N) (sortedVal v) := by
  rw [everywhere_sorted]
  intro fs hp e
  rw [sortedEntries_keys] at e
  have step : ∀ (ty : Ty) (b : Any) (u : Val), tyOk otherTypes ty = true → ClearAs V30.table ty b → RawCopy N ty u b →
      RawCopy N ty (sortedVal u) (sortedAny b) := by
    rintro ty b u ht hc ⟨⟨w, hw, hs⟩, a, ha, hn⟩
    refine ⟨raw_sorted hN ht hc hw hs, ?_⟩
    obtain ⟨a', ha', hrel⟩ := encode_sorted ha
    exact ⟨a', ha', decodeAny_reads hrel hn⟩
  simp only [sorted_fieldIn]
  rcases h fs hp e with ⟨b, h1, h2, h3, h4⟩ | ⟨b, h1, h2, h3, h4⟩
  · refine .inl ⟨sortedAny b, by rw [h1, sorted_xorSchema], fun e' => h2 (sorted_nil.1 e'), by rw [sorted_empty]; exact h3, ?_⟩
    exact step _ b _ (by decide +kernel) ((hr fs hp e).1 b h1) h4
  · refine .inr ⟨sortedAny b, by rw [h1, sorted_xorContent], sorted_nil.2 h2, by rw [sorted_empty]; exact h3, ?_⟩
    exact step _ b _ (by decide +kernel) ((hr fs hp e).2 b h1) h4

theorem clearAs_null {ty : Ty} : ClearAs T ty .null := scalar_clear rfl

/-- The raw copy is read from the member with this key. -/
theorem rawCopy_from {j : Any} {b : Any} (hb : j ≠ .null) :
    (decode V30.table N (.ptr (.named "SchemaXORContent")) j = some (xorSchema b) →
      b = .null ∨ ∃ M p, j = .obj M ∧ p ∈ M ∧ (∃ f, fieldOf V30.sHasSchema.fields p.1 = some f) ∧ decodeAny N p.2 = some b) ∧
    (decode V30.table N (.ptr (.named "SchemaXORContent")) j = some (xorContent b) →
      b = .null ∨ ∃ M p, j = .obj M ∧ p ∈ M ∧ (∃ f, fieldOf V30.sHasContent.fields p.1 = some f) ∧ decodeAny N p.2 = some b) := by
  have key : ∀ v, decode V30.table N (.ptr (.named "SchemaXORContent")) j = some v →
      ∃ val, v = structOf V30.sSchemaXORContent val ∧ ∃ e ∈ V30.sSchemaXORContent.oneOf, ∃ w,
        decode V30.table N e.ty j = some w ∧ ∀ e' ∈ V30.sSchemaXORContent.oneOf, val e'.go = if e'.go = e.go then w else .nil := by
    intro v hv
    rw [decode_ptr ranked30 rfl] at hv
    have hv' : decode V30.table N (.named "SchemaXORContent") j = some v := by
      cases j <;> first | exact hv | exact absurd rfl hb
    obtain ⟨M, val, rfl, L⟩ := loaded ranked30 (s := V30.sSchemaXORContent) (by decide +kernel) (by decide) (.inr rfl) hv'
    rcases L.oneOf with e | ⟨e, he, w, hw, _, hval⟩
    · cases e
    · exact ⟨val, rfl, e, he, w, hw, hval⟩
  have has : ∀ n go key s w, GoMap.get? V30.table n = some (.struct s) → s.fields = [⟨go, key, .any, false⟩] →
      s.names = [go] → s.decodes = true → s.nulls = [] → decode V30.table N (.ptr (.named n)) j = some w →
      ∀ b, w = .struct [(go, .any b)] →
        b = .null ∨ ∃ M p, j = .obj M ∧ p ∈ M ∧ (∃ f, fieldOf s.fields p.1 = some f) ∧ decodeAny N p.2 = some b := by
    intro n go key s w hn hf hnm hdec hnul hw b e
    rw [decode_ptr ranked30 rfl] at hw
    have hw' : decode V30.table N (.named n) j = some w := by
      cases j <;> first | exact hw | exact absurd rfl hb
    obtain ⟨M, val, rfl, L⟩ := loaded ranked30 hn (by rw [hnm]; simp) (.inl hdec) hw'
    obtain ⟨rd, hr, ev⟩ := L.fields ⟨go, key, .any, false⟩ (by rw [hf]; simp)
    rw [rememberNull_id (by rw [hnul]; rfl)] at ev
    have hval : val go = .any b := by
      unfold structOf at e
      rw [hnm] at e
      simpa using e
    simp only at ev
    rw [ev] at hval
    rcases hr with ⟨_, ⟨_, h⟩ | ⟨M1, p, M2, eM, hk, hd, _⟩⟩
    · rw [h] at hval
      simp only [zero, Val.any.injEq] at hval
      exact .inl hval.symm
    · rw [decode_any, Option.map_eq_some_iff] at hd
      obtain ⟨x, hx, hd⟩ := hd
      rw [hval] at hd
      cases hd
      have hp : p ∈ M := by rw [eM]; simp
      rcases L.members with e | ⟨_, e⟩
      · exact .inr ⟨M, p, e, hp, ⟨_, hk⟩, hx⟩
      · rw [e] at hp; cases hp
  have hS := fun w => has "HasSchema" "Schema" "schema" V30.sHasSchema w (by decide +kernel) rfl rfl rfl rfl
  have hC := fun w => has "HasContent" "Content" "content" V30.sHasContent w (by decide +kernel) rfl rfl rfl rfl
  constructor
  · intro h
    obtain ⟨val, e, a, ha, w, hw, hval⟩ := key _ h
    have e1 : val "HasSchema" = .struct [("Schema", .any b)] := by
      have := e
      simp only [xorSchema, structOf, Val.struct.injEq] at this
      exact (Prod.mk.inj (List.cons.inj this).1).2.symm
    have v1 := hval ⟨"HasSchema", .ptr (.named "HasSchema")⟩ (by decide)
    simp only [V30.sSchemaXORContent, List.mem_cons, List.not_mem_nil, or_false] at ha
    rcases ha with rfl | rfl
    · rw [e1] at v1
      exact hS w hw b v1.symm
    · rw [e1] at v1; cases v1
  · intro h
    obtain ⟨val, e, a, ha, w, hw, hval⟩ := key _ h
    have e1 : val "HasContent" = .struct [("Content", .any b)] := by
      have := e
      simp only [xorContent, structOf, Val.struct.injEq] at this
      exact (Prod.mk.inj (List.cons.inj (List.cons.inj this).2).1).2.symm
    have v1 := hval ⟨"HasContent", .ptr (.named "HasContent")⟩ (by decide)
    simp only [V30.sSchemaXORContent, List.mem_cons, List.not_mem_nil, or_false] at ha
    rcases ha with rfl | rfl
    · rw [e1] at v1; cases v1
    · rw [e1] at v1
      exact hC w hw b v1.symm

/-- The raw copies in a document that was read have one spelling of each field name if the file has. -/
theorem decode_clearRaw {j : Any} {ty : Ty} {v : Val} (ht : tyOk [] ty = true) (hc : ClearAs V30.table ty j)
    (hd : decode V30.table N ty j = some v) : Everywhere clearRaw v := by
  refine decode_every_from (ty0 := ty) (j0 := j) everyChecks30 ?_ (.inr ?_) ?_ j ty v ht .self hd
  · intro e; exact absurd e (by decide)
  · intro e; exact absurd e (by decide)
  · intro n s i M val hn hnb hb hR L e
    obtain ⟨_, _, _, _, _, _, _, h8⟩ := everyCheck_iff everyChecks30 hn hnb hb
    rw [names_of] at e
    have := h8 e
    subst this
    rw [fieldIn_of val (by decide)]
    have hB : Base V30.sParameter := base_of_check (by decide +kernel)
    have hi : i = .obj M := by
      rcases L.members with h | ⟨_, h⟩
      · exact h
      · have := L.require "name" (by decide)
        rw [h] at this
        cases this
    have hl := L.embeds ⟨"SchemaXORContent", .ptr (.named "SchemaXORContent")⟩ (by decide)
    simp only at hl
    have hne : i ≠ .null := by rw [hi]; intro h; cases h
    constructor
    · intro b eb
      rw [eb] at hl
      rcases (rawCopy_from hne).1 hl with rfl | ⟨M', p, e', hp, ⟨f, hf⟩, hx⟩
      · exact clearAs_null
      · rw [hi] at e'
        cases e'
        have hk := parameter_key hB L (k := "schema") (by decide +kernel) (by decide +kernel) hp hf
        rw [hi] at hR
        obtain ⟨k, x⟩ := p
        simp only at hk
        subst hk
        exact decodeAny_clear (clearAs_part hc (readAs_trans hR (.field hn hp
          (f := ⟨"Schema", "schema", .ptr (.named "SchemaOrRef"), true⟩) (by decide +kernel) .self))) hx
    · intro b eb
      rw [eb] at hl
      rcases (rawCopy_from hne).2 hl with rfl | ⟨M', p, e', hp, ⟨f, hf⟩, hx⟩
      · exact clearAs_null
      · rw [hi] at e'
        cases e'
        have hk := parameter_key hB L (k := "content") (by decide +kernel) (by decide +kernel) hp hf
        rw [hi] at hR
        obtain ⟨k, x⟩ := p
        simp only at hk
        subst hk
        exact decodeAny_clear (clearAs_part hc (readAs_trans hR (.field hn hp
          (f := ⟨"Content", "content", .map (.named "MediaType"), true⟩) (by decide +kernel) .self))) hx

end Verif
