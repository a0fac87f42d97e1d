import Verif.Spec.Yaml

/-!
# C40, C41: YAML helpers
-/

namespace Verif
open Spec

/-! ## C40 -/

theorem tokens_pos (v : Any) : 1 ≤ (tokens v).length := by
  cases v <;> simp [tokens]

mutual
/-- The model writes keys as specified. -/
theorem keyText_eq (sprint : Yv → String) (k : Yv) : Spec.keyText sprint k = keyString sprint k := by
  unfold Spec.keyText keyString
  split <;> simp_all

/-- **C40.** Skipping a value of any depth consumes exactly its tokens. -/
theorem C40_skip : ∀ (v : Any) (n : Nat) (rest : List Tok), 2 * (tokens v).length ≤ n →
    skipValue n (tokens v ++ rest) = .ok rest
  | .null, n + 1, rest, _ => by simp [tokens, skipValue]
  | .bool _, n + 1, rest, _ => by simp [tokens, skipValue]
  | .num _, n + 1, rest, _ => by simp [tokens, skipValue]
  | .str _, n + 1, rest, _ => by simp [tokens, skipValue]
  | .null, 0, rest, h => by simp [tokens] at h
  | .bool _, 0, rest, h => by simp [tokens] at h
  | .num _, 0, rest, h => by simp [tokens] at h
  | .str _, 0, rest, h => by simp [tokens] at h
  | .arr xs, 0, rest, h => by simp [tokens] at h
  | .obj ms, 0, rest, h => by simp [tokens] at h
  | .arr xs, n + 1, rest, h => by
    simp only [tokens, List.cons_append, List.append_assoc, skipValue]
    refine skipLoop_list xs n rest (Or.inl rfl) ?_
    simp [tokens] at h
    omega
  | .obj ms, n + 1, rest, h => by
    simp only [tokens, List.cons_append, List.append_assoc, skipValue]
    refine skipLoop_members ms n rest ?_
    simp [tokens] at h
    omega
theorem skipLoop_list : ∀ (xs : List Any) (n : Nat) {c : Tok} (rest : List Tok),
    c = .closeArr ∨ c = .closeObj →
    2 * (tokensList xs).length + 2 ≤ n → skipLoop n (tokensList xs ++ ([c] ++ rest)) = .ok rest
  | [], 0, _, _, _, h => by omega
  | [], 1, _, _, _, h => by simp [tokensList] at h
  | [], n + 2, c, rest, hc, h => by
    rcases hc with rfl | rfl <;> simp [tokensList, skipLoop, skipValue]
  | x :: xs, 0, _, _, _, h => by omega
  | x :: xs, n + 1, c, rest, hc, h => by
    have hp := tokens_pos x
    simp only [tokensList, List.length_append] at h
    simp only [tokensList, List.append_assoc, skipLoop]
    rw [C40_skip x n _ (by omega)]
    exact skipLoop_list xs n rest hc (by omega)
theorem skipLoop_members : ∀ (ms : List (String × Any)) (n : Nat) (rest : List Tok),
    2 * (tokensMembers ms).length + 2 ≤ n →
    skipLoop n (tokensMembers ms ++ ([.closeObj] ++ rest)) = .ok rest
  | [], 0, _, h => by omega
  | [], 1, _, h => by simp [tokensMembers] at h
  | [], n + 2, rest, h => by simp [tokensMembers, skipLoop, skipValue]
  | (k, x) :: ms, 0, _, h => by omega
  | (k, x) :: ms, 1, _, h => by omega
  | (k, x) :: ms, n + 2, rest, h => by
    have hp := tokens_pos x
    simp only [tokensMembers, List.length_cons, List.length_append] at h
    have h1 : skipValue (n + 1) (Tok.str k :: (tokens x ++ tokensMembers ms) ++ ([Tok.closeObj] ++ rest)) =
        .ok (tokens x ++ (tokensMembers ms ++ ([Tok.closeObj] ++ rest))) := by
      simp [skipValue]
    simp only [tokensMembers]
    rw [skipLoop]
    rw [h1]
    simp only [skipLoop]
    rw [C40_skip x n _ (by omega)]
    exact skipLoop_members ms n rest (by omega)
end

theorem keysLoop_members (ms : List (String × Any)) : ∀ (n : Nat) (rest : List Tok),
    2 * (tokensMembers ms).length + 2 ≤ n →
    keysLoop n (tokensMembers ms ++ (.closeObj :: rest)) = some (ms.map Prod.fst) := by
  induction ms with
  | nil =>
    intro n rest h
    cases n with
    | zero => omega
    | succ n => simp [tokensMembers, keysLoop]
  | cons p ms ih =>
    rcases p with ⟨k, x⟩
    intro n rest h
    have hp := tokens_pos x
    cases n with
    | zero => omega
    | succ n =>
      simp only [tokensMembers, List.length_cons, List.length_append] at h
      simp only [tokensMembers, List.cons_append, List.append_assoc, keysLoop]
      rw [C40_skip x n _ (by omega)]
      simp only []
      rw [ih n rest (by omega)]
      simp

/-- **C40.** The keys of a JSON object are reported in document order, as often as they occur, whatever
the values are. -/
theorem C40_keys (ms : List (String × Any)) : objectKeys (tokens (.obj ms)) = some (ms.map Prod.fst) := by
  simp only [tokens, objectKeys]
  exact keysLoop_members ms _ [] (by simp; omega)

/-- **C40.** Anything but an object has no keys to report: an error. -/
theorem C40_not_object (v : Any) (h : ∀ ms, v ≠ .obj ms) : objectKeys (tokens v) = none := by
  cases v with
  | obj ms => exact absurd rfl (h ms)
  | null => rfl
  | bool b => rfl
  | num n => rfl
  | str s => rfl
  | arr xs => rfl

/-- Keys of a nested document, with a repeated key and a nested object whose keys are not reported. -/
example : objectKeys (tokens (.obj [("b", .obj [("x", .arr [.null, .obj []])]), ("a", .num "1"),
    ("b", .str "}")])) = some ["b", "a", "b"] := by
  rw [C40_keys]; rfl

theorem foldl_set_get (ms : List (String × Any)) (m : GoMap Any) (k : String) :
    GoMap.get? (ms.foldl (fun m p => GoMap.set m p.1 p.2) m) k =
      match lastValue ms k with
      | some v => some v
      | none => GoMap.get? m k := by
  have hgs : ∀ (m : GoMap Any) (k' : String) (v : Any),
      GoMap.get? (GoMap.set m k' v) k = if k' = k then some v else GoMap.get? m k := by
    intro m k' v
    induction m with
    | nil => simp [GoMap.set, GoMap.get?]
    | cons q qs ih =>
      rcases q with ⟨a, b⟩
      simp only [GoMap.set]
      by_cases h : a = k'
      · subst h
        simp [GoMap.get?]
        by_cases h2 : a = k <;> simp [h2]
      · rw [if_neg h]
        simp only [GoMap.get?, ih]
        by_cases h2 : a = k
        · have h3 : ¬ k' = k := fun h4 => h (h2.trans h4.symm)
          simp [h2, h3]
        · simp [h2]
  induction ms generalizing m with
  | nil => simp [lastValue]
  | cons p ps ih =>
    rcases p with ⟨a, b⟩
    simp only [List.foldl_cons, ih, hgs]
    simp only [lastValue, List.reverse_cons, List.find?_append]
    cases hf : List.find? (fun p => p.1 == k) ps.reverse with
    | some q => simp
    | none =>
      by_cases h : a = k
      · simp [h]
      · simp [h]

theorem decoded_keys {N : Codec.Nums} {ms ds : List (String × Any)} (h : Codec.decodeAnyMembers N ms = some ds) :
    ds.map Prod.fst = ms.map Prod.fst := by
  induction ms generalizing ds with
  | nil => simp only [Codec.decodeAnyMembers, Option.some.injEq] at h; rw [← h]
  | cons p ms ih =>
    obtain ⟨k, x⟩ := p
    simp only [Codec.decodeAnyMembers] at h
    split at h
    · rename_i y ys _ hys
      rw [← Option.some.inj h, List.map_cons, List.map_cons, ih hys]
    · cases h

/-- **C40.** The ordered map of a JSON object lists its keys in document order, each with the last value
the object gives to it (`ds` are the members with their values read as `interface{}`); for an object without
repeated keys it is the object's own member list. -/
theorem C40_ordered (N : Codec.Nums) (ms ds : List (String × Any)) (hd : Codec.decodeAnyMembers N ms = some ds) :
    orderedMap N (.obj ms) = some (ms.map (fun p => (p.1, (lastValue ds p.1).getD .null))) ∧
    ((ms.map Prod.fst).Nodup → orderedMap N (.obj ms) = some ds) := by
  have hk := decoded_keys hd
  have h1 : orderedMap N (.obj ms) = some (ms.map (fun p => (p.1, (lastValue ds p.1).getD .null))) := by
    simp only [orderedMap, decodeMap, C40_keys, hd, Option.map_some]
    simp only [List.map_map, Option.some.injEq]
    apply List.map_congr_left
    intro p _
    simp only [Function.comp, Codec.lastWins]
    rw [foldl_set_get]
    cases lastValue ds p.1 <;> simp [GoMap.get?]
  refine ⟨h1, fun hnd => ?_⟩
  rw [h1]
  congr 1
  rw [← hk] at hnd
  have hmem : ∀ p ∈ ds, lastValue ds p.1 = some p.2 := by
    intro p hp
    unfold lastValue
    have hf : ds.reverse.find? (fun q => q.1 == p.1) = some p := by
      cases hfind : ds.reverse.find? (fun q => q.1 == p.1) with
      | none =>
        rw [List.find?_eq_none] at hfind
        exact absurd (by simp) (hfind p (List.mem_reverse.2 hp))
      | some q =>
        have hq1 := List.find?_some hfind
        have hq2 := List.mem_reverse.1 (List.mem_of_find?_eq_some hfind)
        have hk : q.1 = p.1 := by simpa using hq1
        have huniq : ∀ (l : List (String × Any)), (l.map Prod.fst).Nodup → ∀ a ∈ l, ∀ b ∈ l, a.1 = b.1 → a = b := by
          intro l
          induction l with
          | nil => intro _ a ha; cases ha
          | cons c cs ih =>
            intro hn a ha b hb hab
            simp only [List.map_cons, List.nodup_cons] at hn
            rcases List.mem_cons.1 ha with rfl | ha' <;> rcases List.mem_cons.1 hb with rfl | hb'
            · rfl
            · exact absurd (List.mem_map_of_mem (f := Prod.fst) hb') (by rw [← hab]; exact hn.1)
            · exact absurd (List.mem_map_of_mem (f := Prod.fst) ha') (by rw [hab]; exact hn.1)
            · exact ih hn.2 a ha' b hb' hab
        rw [huniq ds hnd q hq2 p hp hk]
    rw [hf]; rfl
  have h2 : ms.map (fun p => (p.1, (lastValue ds p.1).getD .null)) =
      (ms.map Prod.fst).map (fun k => (k, (lastValue ds k).getD .null)) := by
    rw [List.map_map]; rfl
  have h3 : (ds.map Prod.fst).map (fun k => (k, (lastValue ds k).getD .null)) = ds.map id := by
    rw [List.map_map]
    apply List.map_congr_left
    intro p hp
    simp [hmem p hp]
  rw [h2, ← hk, h3]
  simp

/-- **C40.** Only objects have an ordered map, and only if their numbers can be read. -/
theorem C40_only_objects (N : Codec.Nums) (v : Any) : orderedMap N v = none ↔
    ∀ ms, v = .obj ms → Codec.decodeAnyMembers N ms = none := by
  constructor
  · rintro h ms rfl
    cases hd : Codec.decodeAnyMembers N ms with
    | none => rfl
    | some ds => rw [(C40_ordered N ms ds hd).1] at h; cases h
  · intro h
    unfold orderedMap
    cases v with
    | obj ms => simp only [decodeMap, h ms rfl, Option.map_none]
    | _ => rw [C40_not_object _ (by simp)]; split <;> rfl

example : orderedMap ⟨some, some⟩ (.obj [("b", .num "1"), ("a", .arr []), ("b", .num "2")]) =
    some [("b", .num "2"), ("a", .arr []), ("b", .num "2")] := by
  with_unfolding_all rfl

/-! ## C41 -/

theorem StringKeyedMembers_iff (ms : List (String × Yv)) :
    StringKeyedMembers ms ↔ ∀ p ∈ ms, StringKeyed p.2 := by
  induction ms with
  | nil => simp [StringKeyedMembers]
  | cons p ps ih => rcases p with ⟨k, v⟩; simp [StringKeyedMembers, ih]

theorem foldl_set_mem {V : Type} {Q : String × V → Prop} (l : List (String × V)) (m : GoMap V)
    (hl : ∀ p ∈ l, Q p) (hm : ∀ p ∈ m, Q p) :
    ∀ p ∈ l.foldl (fun m p => GoMap.set m p.1 p.2) m, Q p := by
  induction l generalizing m with
  | nil => exact hm
  | cons q qs ih =>
    rw [List.foldl_cons]
    apply ih _ (fun p hp => hl p (List.mem_cons_of_mem _ hp))
    have hq := hl q (List.mem_cons_self ..)
    intro p hp
    have : ∀ (m : GoMap V), (∀ p ∈ m, Q p) → ∀ p ∈ GoMap.set m q.1 q.2, Q p := by
      intro m
      induction m with
      | nil =>
        intro _ p hp
        simp [GoMap.set] at hp
        rw [hp]; exact hq
      | cons a as ihm =>
        rcases a with ⟨a1, a2⟩
        intro hm p hp
        simp only [GoMap.set] at hp
        split at hp
        · rcases List.mem_cons.1 hp with rfl | hp
          · exact hq
          · exact hm p (List.mem_cons_of_mem _ hp)
        · rcases List.mem_cons.1 hp with rfl | hp
          · exact hm _ (List.mem_cons_self ..)
          · exact ihm (fun x hx => hm x (List.mem_cons_of_mem _ hx)) p hp
    exact this m hm p hp

mutual
/-- **C41.** No map with other than string keys is left at any depth. -/
theorem C41_string_keys (sprint : Yv → String) (o : YOrder) : ∀ (path : List Nat) (v : Yv),
    StringKeyed (convertMap sprint o path v)
  | _, .scalar _ => by simp [convertMap, StringKeyed]
  | path, .seq xs => by
    simp only [convertMap, StringKeyed]
    exact convertList_keyed sprint o path 0 xs
  | path, .mapI ms => by
    simp only [convertMap, StringKeyed]
    rw [StringKeyedMembers_iff]
    apply foldl_set_mem (Q := fun p => StringKeyed p.2)
    · intro p hp
      exact convertEntries_keyed sprint o path 0 ms p ((o.perm _ _).mem_iff.1 hp)
    · intro p hp; cases hp
  | path, .mapS ms => by
    simp only [convertMap, StringKeyed]
    exact convertMembers_keyed sprint o path 0 ms
theorem convertList_keyed (sprint : Yv → String) (o : YOrder) : ∀ (path : List Nat) (i : Nat) (xs : List Yv),
    StringKeyedList (convertList sprint o path i xs)
  | _, _, [] => by simp [convertList, StringKeyedList]
  | path, i, x :: xs => by
    simp only [convertList, StringKeyedList]
    exact ⟨C41_string_keys sprint o (i :: path) x, convertList_keyed sprint o path (i + 1) xs⟩
theorem convertEntries_keyed (sprint : Yv → String) (o : YOrder) : ∀ (path : List Nat) (i : Nat)
    (ms : List (Yv × Yv)), ∀ p ∈ convertEntries sprint o path i ms, StringKeyed p.2
  | _, _, [], p, hp => by simp [convertEntries] at hp
  | path, i, (k, v) :: ms, p, hp => by
    simp only [convertEntries] at hp
    rcases List.mem_cons.1 hp with rfl | hp
    · exact C41_string_keys sprint o (i :: path) v
    · exact convertEntries_keyed sprint o path (i + 1) ms p hp
theorem convertMembers_keyed (sprint : Yv → String) (o : YOrder) : ∀ (path : List Nat) (i : Nat)
    (ms : List (String × Yv)), StringKeyedMembers (convertMembers sprint o path i ms)
  | _, _, [] => by simp [convertMembers, StringKeyedMembers]
  | path, i, (k, v) :: ms => by
    simp only [convertMembers, StringKeyedMembers]
    exact ⟨C41_string_keys sprint o (i :: path) v, convertMembers_keyed sprint o path (i + 1) ms⟩
end

mutual
/-- **C41.** A value that already has string keys everywhere is not changed. -/
theorem C41_identity (sprint : Yv → String) (o : YOrder) : ∀ (path : List Nat) (v : Yv),
    StringKeyed v → convertMap sprint o path v = v
  | _, .scalar _, _ => by simp [convertMap]
  | path, .seq xs, h => by
    simp only [StringKeyed] at h
    simp only [convertMap, convertList_identity sprint o path 0 xs h]
  | path, .mapI ms, h => by simp [StringKeyed] at h
  | path, .mapS ms, h => by
    simp only [StringKeyed] at h
    simp only [convertMap, convertMembers_identity sprint o path 0 ms h]
theorem convertList_identity (sprint : Yv → String) (o : YOrder) : ∀ (path : List Nat) (i : Nat)
    (xs : List Yv), StringKeyedList xs → convertList sprint o path i xs = xs
  | _, _, [], _ => by simp [convertList]
  | path, i, x :: xs, h => by
    simp only [StringKeyedList] at h
    simp only [convertList, C41_identity sprint o (i :: path) x h.1,
      convertList_identity sprint o path (i + 1) xs h.2]
theorem convertMembers_identity (sprint : Yv → String) (o : YOrder) : ∀ (path : List Nat) (i : Nat)
    (ms : List (String × Yv)), StringKeyedMembers ms → convertMembers sprint o path i ms = ms
  | _, _, [], _ => by simp [convertMembers]
  | path, i, (k, v) :: ms, h => by
    simp only [StringKeyedMembers] at h
    simp only [convertMembers, C41_identity sprint o (i :: path) v h.1,
      convertMembers_identity sprint o path (i + 1) ms h.2]
end

theorem convertEntries_keys (sprint : Yv → String) (o : YOrder) (path : List Nat) (i : Nat)
    (ms : List (Yv × Yv)) :
    (convertEntries sprint o path i ms).map Prod.fst = ms.map (fun p => Spec.keyText sprint p.1) := by
  induction ms generalizing i with
  | nil => simp [convertEntries]
  | cons p ps ih => rcases p with ⟨k, v⟩; simp [convertEntries, ih, keyText_eq]

theorem convertMembers_keys (sprint : Yv → String) (o : YOrder) (path : List Nat) (i : Nat)
    (ms : List (String × Yv)) : (convertMembers sprint o path i ms).map Prod.fst = ms.map Prod.fst := by
  induction ms generalizing i with
  | nil => simp [convertMembers]
  | cons p ps ih => rcases p with ⟨k, v⟩; simp [convertMembers, ih]

/-- Writing entries with new, different keys into a map appends them. -/
theorem foldl_set_distinct {V : Type} (l : List (String × V)) (m : GoMap V)
    (h : ((m ++ l).map Prod.fst).Nodup) :
    l.foldl (fun m p => GoMap.set m p.1 p.2) m = m ++ l := by
  have hset : ∀ (m : GoMap V) (k : String) (v : V), k ∉ m.map Prod.fst → GoMap.set m k v = m ++ [(k, v)] := by
    intro m k v
    induction m with
    | nil => intro _; rfl
    | cons a as ih =>
      rcases a with ⟨a1, a2⟩
      intro hk
      simp only [List.map_cons, List.mem_cons, not_or] at hk
      simp only [GoMap.set]
      rw [if_neg (fun e => hk.1 e.symm), ih hk.2]
      rfl
  induction l generalizing m with
  | nil => simp
  | cons q qs ih =>
    rw [List.foldl_cons]
    have hq : q.1 ∉ m.map Prod.fst := by
      simp only [List.map_append, List.map_cons] at h
      have := List.nodup_append.1 h
      intro hc
      exact this.2.2 _ hc _ (List.mem_cons_self ..) rfl
    rw [hset m q.1 q.2 hq, ih]
    · simp
    · simpa using h

mutual
/-- **C41.** If, in every map, different keys are written differently, the converted value represents the
given one, for every order in which maps are visited: scalars and lists are kept, element by element, and
every map entry is found under its written key and nothing else is. -/
theorem C41_represents (sprint : Yv → String) (o : YOrder) : ∀ (path : List Nat) (v : Yv),
    DistinctKeys sprint v → Represents sprint v (convertMap sprint o path v)
  | _, .scalar _, _ => by simp [convertMap, Represents]
  | path, .seq xs, h => by
    simp only [DistinctKeys] at h
    simp only [convertMap, Represents]
    exact ⟨_, rfl, represents_list sprint o path 0 xs h⟩
  | path, .mapI ms, h => by
    simp only [DistinctKeys] at h
    simp only [convertMap, Represents]
    have hperm := o.perm path (convertEntries sprint o path 0 ms)
    have hnd : ((o.ord path (convertEntries sprint o path 0 ms)).map Prod.fst).Nodup := by
      refine ((hperm.map Prod.fst).nodup_iff).2 ?_
      rw [convertEntries_keys]
      exact h.1
    refine ⟨_, rfl, ?_, ?_⟩
    · rw [foldl_set_distinct _ [] (by simpa using hnd)]
      have := hperm.map Prod.fst
      rw [convertEntries_keys] at this
      simpa using this
    · apply represents_entries sprint o path 0 ms h.2
      intro p hp
      rw [foldl_set_distinct _ [] (by simpa using hnd)]
      simpa using hperm.mem_iff.2 hp
  | path, .mapS ms, h => by
    simp only [DistinctKeys] at h
    simp only [convertMap, Represents]
    refine ⟨_, rfl, ?_, ?_⟩
    · rw [convertMembers_keys]
    · exact represents_members sprint o path 0 ms h.2 _ (fun p hp => hp)
theorem represents_list (sprint : Yv → String) (o : YOrder) : ∀ (path : List Nat) (i : Nat) (xs : List Yv),
    DistinctKeysList sprint xs → RepresentsList sprint xs (convertList sprint o path i xs)
  | _, _, [], _ => by simp [convertList, RepresentsList]
  | path, i, x :: xs, h => by
    simp only [DistinctKeysList] at h
    simp only [convertList, RepresentsList]
    exact ⟨_, _, rfl, C41_represents sprint o (i :: path) x h.1, represents_list sprint o path (i + 1) xs h.2⟩
theorem represents_entries (sprint : Yv → String) (o : YOrder) : ∀ (path : List Nat) (i : Nat)
    (ms : List (Yv × Yv)), DistinctKeysEntries sprint ms → ∀ {ns : List (String × Yv)},
    (∀ p ∈ convertEntries sprint o path i ms, p ∈ ns) → RepresentsEntries sprint ms ns
  | _, _, [], _, _, _ => by simp [RepresentsEntries]
  | path, i, (k, v) :: ms, h, ns, hm => by
    simp only [DistinctKeysEntries] at h
    simp only [RepresentsEntries, keyText_eq]
    simp only [convertEntries] at hm
    refine ⟨⟨_, hm _ (List.mem_cons_self ..), C41_represents sprint o (i :: path) v h.1⟩, ?_⟩
    exact represents_entries sprint o path (i + 1) ms h.2 (fun p hp => hm p (List.mem_cons_of_mem _ hp))
theorem represents_members (sprint : Yv → String) (o : YOrder) : ∀ (path : List Nat) (i : Nat)
    (ms : List (String × Yv)), DistinctKeysMembers sprint ms → ∀ (ns : List (String × Yv)),
    (∀ p ∈ convertMembers sprint o path i ms, p ∈ ns) → RepresentsMembers sprint ms ns
  | _, _, [], _, _, _ => by simp [RepresentsMembers]
  | path, i, (k, v) :: ms, h, ns, hm => by
    simp only [DistinctKeysMembers] at h
    simp only [RepresentsMembers]
    simp only [convertMembers] at hm
    refine ⟨⟨_, hm _ (List.mem_cons_self ..), C41_represents sprint o (i :: path) v h.1⟩, ?_⟩
    exact represents_members sprint o path (i + 1) ms h.2 ns (fun p hp => hm p (List.mem_cons_of_mem _ hp))
end

/-- A document with integer and boolean keys, such as `responses: {200: …}`, meets the hypothesis. -/
example (sprint : Yv → String) (o : YOrder) (h1 : sprint (.scalar (.num "200")) = "200")
    (h2 : sprint (.scalar (.bool true)) = "true") :
    Represents sprint (.mapI [(.scalar (.str "responses"), .mapI [(.scalar (.num "200"), .scalar .null),
        (.scalar (.bool true), .seq [.scalar (.num "1")])])])
      (convertMap sprint o [] (.mapI [(.scalar (.str "responses"), .mapI [(.scalar (.num "200"), .scalar .null),
        (.scalar (.bool true), .seq [.scalar (.num "1")])])])) := by
  apply C41_represents
  simp [DistinctKeys, DistinctKeysEntries, DistinctKeysList, Spec.keyText, h1, h2]

/-- **C41.** Without that condition, the value kept under a written key is one of the values given to it. -/
theorem C41_collisions (sprint : Yv → String) (o : YOrder) (path : List Nat) (ms : List (Yv × Yv)) :
    ∃ ns, convertMap sprint o path (.mapI ms) = .mapS ns ∧
      (∀ k w, (k, w) ∈ ns → ∃ i p, ms[i]? = some p ∧ Spec.keyText sprint p.1 = k ∧
        w = convertMap sprint o (i :: path) p.2) ∧
      (∀ p ∈ ms, Spec.keyText sprint p.1 ∈ ns.map Prod.fst) := by
  refine ⟨_, by simp only [convertMap]; rfl, ?_, ?_⟩
  · have hent : ∀ (ms : List (Yv × Yv)) (i : Nat), ∀ q ∈ convertEntries sprint o path i ms,
        ∃ j p, ms[j]? = some p ∧ Spec.keyText sprint p.1 = q.1 ∧ q.2 = convertMap sprint o ((i + j) :: path) p.2 := by
      intro ms
      induction ms with
      | nil => intro i q hq; simp [convertEntries] at hq
      | cons a as ih =>
        rcases a with ⟨k, v⟩
        intro i q hq
        simp only [convertEntries] at hq
        rcases List.mem_cons.1 hq with rfl | hq
        · exact ⟨0, (k, v), by simp, keyText_eq _ _, by simp⟩
        · obtain ⟨j, p, h1, h2, h3⟩ := ih (i + 1) q hq
          refine ⟨j + 1, p, by simpa using h1, h2, ?_⟩
          rw [h3]
          congr 2
          omega
    intro k w hkw
    have := foldl_set_mem (Q := fun q => ∃ i p, ms[i]? = some p ∧ Spec.keyText sprint p.1 = q.1 ∧
        q.2 = convertMap sprint o (i :: path) p.2) (o.ord path (convertEntries sprint o path 0 ms)) []
      (by
        intro q hq
        obtain ⟨j, p, h1, h2, h3⟩ := hent ms 0 q ((o.perm _ _).mem_iff.1 hq)
        exact ⟨j, p, h1, h2, by simpa using h3⟩)
      (by intro p hp; cases hp) (k, w) hkw
    obtain ⟨i, p, h1, h2, h3⟩ := this
    exact ⟨i, p, h1, h2, h3⟩
  · have hkeys : ∀ (l : List (String × Yv)) (m : GoMap Yv) (k : String),
        k ∈ m.map Prod.fst ∨ k ∈ l.map Prod.fst →
        k ∈ (l.foldl (fun m p => GoMap.set m p.1 p.2) m).map Prod.fst := by
      intro l
      induction l with
      | nil => intro m k h; rcases h with h | h; exact h; simp at h
      | cons q qs ih =>
        intro m k h
        rw [List.foldl_cons]
        apply ih
        have hset : ∀ (m : GoMap Yv) (k' : String) (v : Yv),
            (k ∈ m.map Prod.fst ∨ k = k') → k ∈ (GoMap.set m k' v).map Prod.fst := by
          intro m k' v
          induction m with
          | nil => simp [GoMap.set]
          | cons a as ihm =>
            rcases a with ⟨a1, a2⟩
            intro h
            simp only [GoMap.set]
            by_cases e : a1 = k'
            · rw [if_pos e]
              simp only [List.map_cons, List.mem_cons] at h ⊢
              rcases h with (h | h) | h
              · left; rw [h, e]
              · right; exact h
              · left; exact h
            · rw [if_neg e]
              simp only [List.map_cons, List.mem_cons] at h ⊢
              rcases h with (h | h) | h
              · left; exact h
              · right; exact ihm (Or.inl h)
              · right; exact ihm (Or.inr h)
        rcases h with h | h
        · left; exact hset m q.1 q.2 (Or.inl h)
        · simp only [List.map_cons, List.mem_cons] at h
          rcases h with h | h
          · left; exact hset m q.1 q.2 (Or.inr h)
          · right; exact h
    intro p hp
    apply hkeys
    right
    rw [((o.perm path (convertEntries sprint o path 0 ms)).map Prod.fst).mem_iff, convertEntries_keys]
    exact List.mem_map_of_mem (f := fun p => Spec.keyText sprint p.1) hp

/-- **C41 (negation).** With keys that are written alike the result depends on the order in which Go visits
the map: the keys `1` and `"1"` with different values. -/
theorem C41_collision_order : ∃ (sprint : Yv → String) (v : Yv) (o₁ o₂ : YOrder),
    convertMap sprint o₁ [] v = .mapS [("1", .scalar (.bool false))] ∧
    convertMap sprint o₂ [] v = .mapS [("1", .scalar (.bool true))] := by
  refine ⟨fun _ => "1", .mapI [(.scalar (.num "1"), .scalar (.bool true)),
    (.scalar (.str "1"), .scalar (.bool false))], ⟨fun _ l => l, fun _ _ => .refl _⟩,
    ⟨fun _ l => l.reverse, fun _ l => List.reverse_perm l⟩, ?_, ?_⟩ <;>
  with_unfolding_all rfl

mutual
/-- **C41.** After the conversion, marshalling to JSON is never refused because of a map: if the scalars
marshal, the whole does. -/
theorem C41_marshals (scalarJSON : Any → Option Any) (hs : ∀ a, (scalarJSON a).isSome = true) :
    ∀ (v : Yv), StringKeyed v → (marshalDyn scalarJSON v).isSome = true
  | .scalar a, _ => by simp only [marshalDyn]; exact hs a
  | .seq xs, h => by
    simp only [StringKeyed] at h
    simp only [marshalDyn, Option.isSome_map]
    exact marshalDynList_some scalarJSON hs xs h
  | .mapI _, h => by simp [StringKeyed] at h
  | .mapS ms, h => by
    simp only [StringKeyed] at h
    simp only [marshalDyn, Option.isSome_map]
    exact marshalDynMembers_some scalarJSON hs ms h
theorem marshalDynList_some (scalarJSON : Any → Option Any) (hs : ∀ a, (scalarJSON a).isSome = true) :
    ∀ (xs : List Yv), StringKeyedList xs → (marshalDynList scalarJSON xs).isSome = true
  | [], _ => by simp [marshalDynList]
  | x :: xs, h => by
    simp only [StringKeyedList] at h
    have h1 := C41_marshals scalarJSON hs x h.1
    have h2 := marshalDynList_some scalarJSON hs xs h.2
    obtain ⟨a, ha⟩ := Option.isSome_iff_exists.1 h1
    obtain ⟨b, hb⟩ := Option.isSome_iff_exists.1 h2
    simp [marshalDynList, ha, hb]
theorem marshalDynMembers_some (scalarJSON : Any → Option Any) (hs : ∀ a, (scalarJSON a).isSome = true) :
    ∀ (xs : List (String × Yv)), StringKeyedMembers xs → (marshalDynMembers scalarJSON xs).isSome = true
  | [], _ => by simp [marshalDynMembers]
  | (k, x) :: xs, h => by
    simp only [StringKeyedMembers] at h
    have h1 := C41_marshals scalarJSON hs x h.1
    have h2 := marshalDynMembers_some scalarJSON hs xs h.2
    obtain ⟨a, ha⟩ := Option.isSome_iff_exists.1 h1
    obtain ⟨b, hb⟩ := Option.isSome_iff_exists.1 h2
    simp [marshalDynMembers, ha, hb]
end

/-- The value `{1: true}` does not marshal as it is, and does after the conversion. -/
example : marshalDyn some (.mapI [(.scalar (.num "1"), .scalar (.bool true))]) = none ∧
    ∀ sprint o, (marshalDyn some (convertMap sprint o [] (.mapI [(.scalar (.num "1"), .scalar (.bool true))]))).isSome
      = true :=
  ⟨rfl, fun sprint o => C41_marshals some (fun _ => rfl) _ (C41_string_keys sprint o [] _)⟩

end Verif
