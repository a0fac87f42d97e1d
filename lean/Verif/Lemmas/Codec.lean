import Verif.Codec.Eqns
import Verif.Codec.Table30
import Verif.Codec.Table31
import Verif.Lemmas.Go
import Verif.Spec.Yaml

/-! Lemmas about the generated codecs. -/

namespace Verif.Codec

theorem ranked30 : Ranked V30.table := ranked_of_check (by decide +kernel)
theorem ranked31 : Ranked V31.table := ranked_of_check (by decide +kernel)

/-! ## Maps filled from lists -/

theorem lastWins_append {α : Type} (ms : List (String × α)) (p : String × α) :
    lastWins (ms ++ [p]) = GoMap.set (lastWins ms) p.1 p.2 := by
  simp [lastWins, List.foldl_append]

theorem lastWins_get? {α : Type} (ms : List (String × α)) (k : String) :
    GoMap.get? (lastWins ms) k = (ms.reverse.find? (fun p => p.1 == k)).map Prod.snd := by
  have key : ∀ rs : List (String × α), GoMap.get? (lastWins rs.reverse) k =
      (rs.find? (fun p => p.1 == k)).map Prod.snd := by
    intro rs
    induction rs with
    | nil => rfl
    | cons p rs ih =>
      rw [List.reverse_cons, lastWins_append, GoMap.get?_set, ih, List.find?_cons]
      by_cases h : p.1 = k
      · subst h; simp
      · have : (p.1 == k) = false := by simp [h]
        rw [if_neg (Ne.symm h), this]
  have := key ms.reverse
  rwa [List.reverse_reverse] at this

theorem lastWins_wf {α : Type} (ms : List (String × α)) : (lastWins ms).WF := by
  have key : ∀ rs : List (String × α), (lastWins rs.reverse).WF := by
    intro rs
    induction rs with
    | nil => simp [lastWins, GoMap.WF, GoMap.keys]
    | cons p rs ih => rw [List.reverse_cons, lastWins_append]; exact GoMap.wf_set ih _ _
  have := key ms.reverse
  rwa [List.reverse_reverse] at this

theorem mem_lastWins {α : Type} {ms : List (String × α)} {p : String × α} (h : p ∈ lastWins ms) : p ∈ ms := by
  have key : ∀ rs : List (String × α), p ∈ lastWins rs.reverse → p ∈ rs.reverse := by
    intro rs
    induction rs with
    | nil => intro h; exact h
    | cons q rs ih =>
      rw [List.reverse_cons, lastWins_append]
      intro h
      rcases GoMap.mem_set h with h | h
      · rw [h]; simp
      · exact List.mem_append_left _ (ih h)
  have := key ms.reverse
  rw [List.reverse_reverse] at this
  exact this h

theorem set_absent {α : Type} {m : GoMap α} {k : String} {v : α} (h : k ∉ m.map Prod.fst) :
    GoMap.set m k v = m ++ [(k, v)] := by
  induction m with
  | nil => rfl
  | cons p m ih =>
    obtain ⟨a, b⟩ := p
    simp only [List.map_cons, List.mem_cons, not_or] at h
    simp only [GoMap.set, if_neg (Ne.symm h.1), ih h.2, List.cons_append]

theorem lastWins_nodup {α : Type} {ms : List (String × α)} (h : (ms.map Prod.fst).Nodup) :
    lastWins ms = ms := by
  have key : ∀ rs : List (String × α), (rs.reverse.map Prod.fst).Nodup → lastWins rs.reverse = rs.reverse := by
    intro rs
    induction rs with
    | nil => intro _; rfl
    | cons q rs ih =>
      rw [List.reverse_cons, lastWins_append]
      intro h
      rw [List.map_append, List.nodup_append] at h
      rw [ih h.1]
      apply set_absent
      intro hm
      exact h.2.2 _ hm q.1 (by simp) rfl
  have := key ms.reverse
  rw [List.reverse_reverse] at this
  exact this h

theorem mem_keys_lastWins {α : Type} {ms : List (String × α)} {k : String} :
    k ∈ (lastWins ms).map Prod.fst ↔ k ∈ ms.map Prod.fst := by
  constructor
  · intro h
    obtain ⟨p, hp, rfl⟩ := List.mem_map.1 h
    exact List.mem_map_of_mem (mem_lastWins hp)
  · intro h
    have : (GoMap.get? (lastWins ms) k).isSome := by
      rw [lastWins_get?, Option.isSome_map, List.find?_isSome]
      obtain ⟨p, hp, rfl⟩ := List.mem_map.1 h
      exact ⟨p, by simpa using hp, by simp⟩
    exact (GoMap.mem_keys_iff _ _).2 this

theorem lastWins_map {α β : Type} (f : α → β) (ms : List (String × α)) :
    lastWins (ms.map (fun p => (p.1, f p.2))) = (lastWins ms).map (fun p => (p.1, f p.2)) := by
  have hset : ∀ (m : GoMap α) (k : String) (v : α),
      GoMap.set (m.map (fun p => (p.1, f p.2))) k (f v) = (GoMap.set m k v).map (fun p => (p.1, f p.2)) := by
    intro m k v
    induction m with
    | nil => rfl
    | cons p m ih =>
      obtain ⟨a, b⟩ := p
      simp only [List.map_cons, GoMap.set]
      split
      · rfl
      · simp only [List.map_cons, ih]
  have key : ∀ rs : List (String × α), lastWins (rs.reverse.map (fun p => (p.1, f p.2))) =
      (lastWins rs.reverse).map (fun p => (p.1, f p.2)) := by
    intro rs
    induction rs with
    | nil => rfl
    | cons q rs ih =>
      rw [List.reverse_cons, lastWins_append, List.map_append]
      show lastWins (_ ++ [(q.1, f q.2)]) = _
      rw [lastWins_append, ih, hset]
  have := key ms.reverse
  rwa [List.reverse_reverse] at this

/-! ## `mapAll` -/

theorem mapAll_eq_some {α β : Type} {f : α → Option β} {l : List α} {r : List β} (h : mapAll f l = some r) :
    ∀ y ∈ r, ∃ x ∈ l, f x = some y := by
  induction l generalizing r with
  | nil => simp [mapAll] at h; subst h; intro y hy; cases hy
  | cons x l ih =>
    simp only [mapAll] at h
    split at h
    · rename_i a b ha hb
      simp only [Option.some.injEq] at h
      subst h
      intro y hy
      rcases List.mem_cons.1 hy with e | hy
      · exact ⟨x, List.mem_cons_self, e ▸ ha⟩
      · obtain ⟨z, hz, e⟩ := ih hb y hy
        exact ⟨z, List.mem_cons_of_mem _ hz, e⟩
    · cases h

theorem mapAll_mem {α β : Type} {f : α → Option β} {l : List α} {r : List β} (h : mapAll f l = some r) :
    ∀ x ∈ l, ∃ y ∈ r, f x = some y := by
  induction l generalizing r with
  | nil => intro y hy; cases hy
  | cons x l ih =>
    simp only [mapAll] at h
    split at h
    · rename_i a b ha hb
      simp only [Option.some.injEq] at h
      subst h
      intro y hy
      rcases List.mem_cons.1 hy with e | hy
      · exact ⟨a, List.mem_cons_self, e ▸ ha⟩
      · obtain ⟨z, hz, e⟩ := ih hb y hy
        exact ⟨z, List.mem_cons_of_mem _ hz, e⟩
    · cases h

theorem mapAll_none {α β : Type} {f : α → Option β} {l : List α} {x : α} (hx : x ∈ l) (h : f x = none) :
    mapAll f l = none := by
  cases hm : mapAll f l with
  | none => rfl
  | some r =>
    obtain ⟨y, _, e⟩ := mapAll_mem hm x hx
    rw [h] at e; cases e

theorem mapAll_keys {α β : Type} {g : String × α → Option β} {l : List (String × α)} {r : List (String × β)}
    (h : mapAll (fun p => (g p).map (fun w => (p.1, w))) l = some r) : r.map Prod.fst = l.map Prod.fst := by
  induction l generalizing r with
  | nil => simp [mapAll] at h; subst h; rfl
  | cons x l ih =>
    simp only [mapAll] at h
    split at h
    · rename_i a b ha hb
      simp only [Option.some.injEq] at h
      subst h
      cases hg : g x with
      | none => rw [hg] at ha; cases ha
      | some w =>
        rw [hg] at ha
        simp only [Option.map_some, Option.some.injEq] at ha
        subst ha
        simp only [List.map_cons, ih hb]
    · cases h

theorem mapAll_some_of {α β : Type} {f : α → Option β} {g : α → β} {l : List α} (h : ∀ x ∈ l, f x = some (g x)) :
    mapAll f l = some (l.map g) := by
  induction l with
  | nil => rfl
  | cons x l ih =>
    simp only [mapAll, h x List.mem_cons_self, ih (fun y hy => h y (List.mem_cons_of_mem _ hy)), List.map_cons]

theorem mapAll_append {α β : Type} {f : α → Option β} {l l' : List α} :
    mapAll f (l ++ l') = match mapAll f l, mapAll f l' with
      | some r, some r' => some (r ++ r')
      | _, _ => none := by
  induction l with
  | nil => cases h : mapAll f l' <;> simp [mapAll, h]
  | cons x l ih =>
    simp only [List.cons_append, mapAll, ih]
    cases f x <;> cases mapAll f l <;> cases mapAll f l' <;> rfl

/-! ## Members -/

section
variable {T : Table} {N : Nums}

theorem hasKey_obj {ms : List (String × Any)} {k : String} :
    hasKey (ms.map (memberOf T N)) k = true ↔ k ∈ ms.map Prod.fst := by
  simp only [hasKey, List.any_map, List.any_eq_true, List.mem_map]
  constructor
  · rintro ⟨p, hp, h⟩; exact ⟨p, hp, by simpa [memberOf] using h⟩
  · rintro ⟨p, hp, h⟩; exact ⟨p, hp, by simpa [memberOf] using h⟩

theorem rawMap_obj (ms : List (String × Any)) :
    rawMap (ms.map (memberOf T N)) = (lastWins ms).map (fun p => (p.1, memberOf T N p)) := by
  have e : (ms.map (memberOf T N)).map (fun m => (m.key, m)) =
      (ms.map (fun p => (p.1, p))).map (fun p => (p.1, memberOf T N p.2)) := by
    simp [memberOf, Function.comp_def]
  have e2 : lastWins (ms.map (fun p => (p.1, p))) = (lastWins ms).map (fun p => (p.1, p)) := by
    have hset : ∀ (m : GoMap Any) (k : String) (v : Any),
        GoMap.set (m.map (fun p => (p.1, p))) k (k, v) = (GoMap.set m k v).map (fun p => (p.1, p)) := by
      intro m k v
      induction m with
      | nil => rfl
      | cons p m ih =>
        obtain ⟨a, b⟩ := p
        simp only [List.map_cons, GoMap.set]
        split
        · rfl
        · simp only [List.map_cons, ih]
    have key : ∀ rs : List (String × Any), lastWins (rs.reverse.map (fun p => (p.1, p))) =
        (lastWins rs.reverse).map (fun p => (p.1, p)) := by
      intro rs
      induction rs with
      | nil => rfl
      | cons q rs ih =>
        rw [List.reverse_cons, lastWins_append, List.map_append]
        show lastWins (_ ++ [(q.1, q)]) = _
        rw [lastWins_append, ih, ← hset]
    have := key ms.reverse
    rwa [List.reverse_reverse] at this
  unfold rawMap
  rw [e, lastWins_map, e2, List.map_map]
  rfl

theorem rawMap_get? (ms : List (String × Any)) (k : String) :
    GoMap.get? (rawMap (ms.map (memberOf T N))) k = (Spec.lastValue ms k).map (fun v => memberOf T N (k, v)) := by
  have hget : ∀ m : GoMap Any, GoMap.get? (m.map (fun p => (p.1, memberOf T N p))) k =
      (GoMap.get? m k).map (fun v => memberOf T N (k, v)) := by
    intro m
    induction m with
    | nil => rfl
    | cons p m ih =>
      obtain ⟨a, b⟩ := p
      simp only [List.map_cons, GoMap.get?]
      split
      · rename_i h; subst h; rfl
      · exact ih
  rw [rawMap_obj, hget, lastWins_get?]
  rfl

/-! ## What a decoded struct says -/

theorem decodeStruct_some {s : Struct} {sub : Ty → Option Val} {v : View} {w : Val} :
    decodeStruct T s sub v = some w ↔
      (∀ t ∈ s.nots, sub t = none) ∧
      ∃ fvals evals ovals rvals, decodeFields T s v = some fvals ∧ decodeEmbeds sub s.embeds = some evals ∧
        decodeOneOf sub s.oneOf = some ovals ∧ rawChecks s v.members fvals = true ∧
        decodeRest s v.members = some rvals ∧
        w = .struct (fvals.map (rememberNull s v.members) ++ evals ++ ovals ++ rvals) := by
  unfold decodeStruct
  by_cases hn : s.nots.any (fun t => (sub t).isSome) = true
  · rw [if_pos hn]
    constructor
    · intro h; cases h
    · rintro ⟨h, _⟩
      obtain ⟨t, ht, h'⟩ := List.any_eq_true.1 hn
      rw [h t ht] at h'
      cases h'
  · rw [if_neg hn]
    have hn' : ∀ t ∈ s.nots, sub t = none := by
      intro t ht
      cases h : sub t with
      | none => rfl
      | some x => exact absurd (List.any_eq_true.2 ⟨t, ht, by rw [h]; rfl⟩) hn
    cases decodeFields T s v with
    | none => simp
    | some fvals =>
      cases decodeEmbeds sub s.embeds with
      | none => simp
      | some evals =>
        cases decodeOneOf sub s.oneOf with
        | none => simp
        | some ovals =>
          by_cases hr : rawChecks s v.members fvals = true
          · simp only [hr, if_true]
            cases decodeRest s v.members with
            | none => simp
            | some rvals =>
              constructor
              · intro h
                simp only [Option.some.injEq] at h
                exact ⟨hn', _, _, _, _, rfl, rfl, rfl, hr, rfl, h.symm⟩
              · rintro ⟨_, a, b, c, d, h1, h2, h3, _, h5, h6⟩
                simp only [Option.some.injEq] at h1 h2 h3 h5 ⊢
                subst h1; subst h2; subst h3; subst h5; exact h6.symm
          · simp only [Bool.not_eq_true] at hr
            simp only [hr]
            constructor
            · intro h; cases h
            · rintro ⟨_, a, b, c, d, h1, h2, h3, h4, _⟩
              simp only [Option.some.injEq] at h1
              subst h1
              rw [hr] at h4
              cases h4

theorem decode_struct_some (hT : Ranked T) {n : String} {s : Struct} (hn : GoMap.get? T n = some (.struct s))
    {j : Any} {w : Val} :
    decode T N (.named n) j = some w ↔
      (∀ t ∈ s.nots, decode T N t j = none) ∧
      ∃ fvals evals ovals rvals, decodeFields T s (view T N j) = some fvals ∧
        decodeEmbeds (fun t => decode T N t j) s.embeds = some evals ∧
        decodeOneOf (fun t => decode T N t j) s.oneOf = some ovals ∧
        rawChecks s (membersOf T N j) fvals = true ∧
        decodeRest s (membersOf T N j) = some rvals ∧
        w = .struct (fvals.map (rememberNull s (membersOf T N j)) ++ evals ++ ovals ++ rvals) := by
  rw [decode_struct hT hn, decodeStruct_some, view_members]

theorem rawChecks_iff {s : Struct} {ms : List Member} {fvals : List (String × Val)} :
    rawChecks s ms fvals = true ↔
      (∀ k ∈ s.require, hasKey ms k = true) ∧
      (∀ a b, s.exactlyOne = some (a, b) → hasKey ms a ≠ hasKey ms b) ∧
      (∀ c ∈ s.consts, ∀ m, GoMap.get? (rawMap ms) c.1 = some m → c.2.is m.val = true) ∧
      (∀ c ∈ s.notConsts, ∀ m, GoMap.get? (rawMap ms) c.1 = some m → c.2.is m.val = false) ∧
      (∀ k ∈ s.forbid, hasKey ms k = false) ∧
      (∀ c ∈ s.lower, (match fieldGet fvals c.go with
        | some (.str t) => (goToLower t == c.value) == c.mustBe
        | _ => !c.mustBe) = true) := by
  unfold rawChecks
  simp only [Bool.and_eq_true, List.all_eq_true, Bool.not_eq_eq_eq_not, Bool.not_true]
  constructor
  · rintro ⟨⟨⟨⟨⟨h1, h2⟩, h3⟩, h4⟩, h5⟩, h6⟩
    refine ⟨h1, ?_, ?_, ?_, h5, h6⟩
    · intro a b e
      rw [e] at h2
      simpa using h2
    · intro c hc m hm
      have := h3 c hc
      rw [hm] at this
      exact this
    · intro c hc m hm
      have := h4 c hc
      rw [hm] at this
      simpa using this
  · rintro ⟨h1, h2, h3, h4, h5, h6⟩
    refine ⟨⟨⟨⟨⟨h1, ?_⟩, ?_⟩, ?_⟩, h5⟩, h6⟩
    · cases e : s.exactlyOne with
      | none => rfl
      | some p =>
        obtain ⟨a, b⟩ := p
        simpa using h2 a b e
    · intro c hc
      cases hm : GoMap.get? (rawMap ms) c.1 with
      | none => rfl
      | some m => exact h3 c hc m hm
    · intro c hc
      cases hm : GoMap.get? (rawMap ms) c.1 with
      | none => rfl
      | some m => simpa using h4 c hc m hm

/-! ## Members that do not matter -/

theorem set_filter {α : Type} (q : String → Bool) (m : GoMap α) (k : String) (v : α) :
    (GoMap.set m k v).filter (fun p => q p.1) =
      if q k then GoMap.set (m.filter (fun p => q p.1)) k v else m.filter (fun p => q p.1) := by
  induction m with
  | nil => cases h : q k <;> simp [GoMap.set, h]
  | cons p m ih =>
    obtain ⟨a, b⟩ := p
    by_cases ha : a = k
    · subst ha
      cases h : q a <;> simp [GoMap.set, h]
    · simp only [GoMap.set, if_neg ha, List.filter_cons, ih]
      cases h : q k <;> cases h' : q a <;> simp [GoMap.set, ha]

theorem lastWins_filter {α : Type} (q : String → Bool) (ms : List (String × α)) :
    lastWins (ms.filter (fun p => q p.1)) = (lastWins ms).filter (fun p => q p.1) := by
  have key : ∀ rs : List (String × α), lastWins (rs.reverse.filter (fun p => q p.1)) =
      (lastWins rs.reverse).filter (fun p => q p.1) := by
    intro rs
    induction rs with
    | nil => rfl
    | cons p rs ih =>
      rw [List.reverse_cons, lastWins_append, List.filter_append, set_filter, ← ih]
      cases h : q p.1 with
      | true => simp [h, lastWins_append]
      | false => simp [h]
  have := key ms.reverse
  rwa [List.reverse_reverse] at this

theorem rawMap_filter (q : String → Bool) (l : List Member) :
    rawMap (l.filter (fun m => q m.key)) = (rawMap l).filter (fun p => q p.1) := by
  unfold rawMap
  rw [← lastWins_filter]
  congr 1
  rw [List.filter_map]
  rfl

theorem hasKey_filter {q : String → Bool} {l : List Member} {k : String} (h : q k = true) :
    hasKey (l.filter (fun m => q m.key)) k = hasKey l k := by
  unfold hasKey
  rw [Bool.eq_iff_iff]
  simp only [List.any_eq_true, List.mem_filter, beq_iff_eq]
  constructor
  · rintro ⟨m, ⟨h1, _⟩, h3⟩; exact ⟨m, h1, h3⟩
  · rintro ⟨m, h1, h3⟩; exact ⟨m, ⟨h1, by rw [h3]; exact h⟩, h3⟩

theorem get?_filter {α : Type} {q : String → Bool} {m : GoMap α} {k : String} (h : q k = true) :
    GoMap.get? (m.filter (fun p => q p.1)) k = GoMap.get? m k := by
  induction m with
  | nil => rfl
  | cons p m ih =>
    obtain ⟨a, b⟩ := p
    simp only [List.filter_cons]
    by_cases ha : a = k
    · subst ha; simp [h, GoMap.get?]
    · cases h' : q a <;> simp [GoMap.get?, ha, ih]

theorem fieldVal_filter {q chosen : String → Bool} (h : ∀ k, chosen k = true → q k = true) (ty : Ty) (v : Val)
    (l : List Member) : fieldVal chosen ty v (l.filter (fun m => q m.key)) = fieldVal chosen ty v l := by
  induction l generalizing v with
  | nil => rfl
  | cons m l ih =>
    simp only [List.filter_cons]
    by_cases hc : chosen m.key = true
    · rw [if_pos (h _ hc)]
      simp only [fieldVal, if_pos hc]
      cases m.dec ty with
      | none => rfl
      | some w => exact ih w
    · cases hq : q m.key with
      | true => rw [if_pos rfl]; simp only [fieldVal, if_neg hc]; exact ih v
      | false => simp only [fieldVal, if_neg hc]; exact ih v

/-- The keys that matter when decoding a struct. -/
def relevant (s : Struct) (k : String) : Bool :=
  (fieldOf s.fields k).isSome || s.require.contains k ||
  (match s.exactlyOne with
    | some (a, b) => k == a || k == b
    | none => false) ||
  s.consts.any (fun c => c.1 == k) || s.notConsts.any (fun c => c.1 == k) || s.forbid.contains k ||
  s.nulls.any (fun c => c.2 == k) || s.patterns.any (fun q => q.pat.matches k)

theorem decode_frame (hT : Ranked T) {n : String} {s : Struct} (hn : GoMap.get? T n = some (.struct s))
    (h1 : s.nots = []) (h2 : s.embeds = []) (h3 : s.oneOf = []) (h4 : s.strict = false)
    (h5 : s.additional = none) {ms : List (String × Any)} :
    decode T N (.named n) (.obj ms) = decode T N (.named n) (.obj (ms.filter (fun p => relevant s p.1))) := by
  have hmap : (ms.filter (fun p => relevant s p.1)).map (memberOf T N) =
      (ms.map (memberOf T N)).filter (fun m => relevant s m.key) := by
    rw [List.filter_map]
    rfl
  have hrel : ∀ {k : String}, relevant s k = true ↔ (fieldOf s.fields k).isSome = true ∨ s.require.contains k = true ∨
      (match s.exactlyOne with
        | some (a, b) => k == a || k == b
        | none => false) = true ∨ s.consts.any (fun c => c.1 == k) = true ∨
      s.notConsts.any (fun c => c.1 == k) = true ∨ s.forbid.contains k = true ∨
      s.nulls.any (fun c => c.2 == k) = true ∨ s.patterns.any (fun q => q.pat.matches k) = true := by
    intro k
    simp only [relevant, Bool.or_eq_true, or_assoc]
  rw [decode_struct hT hn, decode_struct hT hn]
  unfold decodeStruct
  have e1 : decodeFields T s (view T N (.obj (ms.filter (fun p => relevant s p.1)))) =
      decodeFields T s (view T N (.obj ms)) := by
    unfold decodeFields
    simp only [view, viewMembers_eq, hmap]
    cases s.decodes with
    | false => rfl
    | true =>
      simp only
      apply mapAll_congr
      intro f _
      rw [fieldVal_filter]
      intro k hk
      rw [hrel]
      left
      have : fieldOf s.fields k = some f := by simpa using hk
      rw [this]; rfl
  have e2 : ∀ fvals, rawChecks s ((ms.map (memberOf T N)).filter (fun m => relevant s m.key)) fvals =
      rawChecks s (ms.map (memberOf T N)) fvals := by
    intro fvals
    have hk : ∀ k, relevant s k = true →
        hasKey ((ms.map (memberOf T N)).filter (fun m => relevant s m.key)) k =
          hasKey (ms.map (memberOf T N)) k := fun k h => hasKey_filter h
    rw [Bool.eq_iff_iff, rawChecks_iff, rawChecks_iff, rawMap_filter]
    have c1 : (∀ k ∈ s.require, hasKey ((ms.map (memberOf T N)).filter (fun m => relevant s m.key)) k = true) ↔
        (∀ k ∈ s.require, hasKey (ms.map (memberOf T N)) k = true) := by
      constructor
      · intro h k hm
        rw [← hk k (hrel.2 (.inr (.inl (by simpa using hm))))]; exact h k hm
      · intro h k hm
        rw [hk k (hrel.2 (.inr (.inl (by simpa using hm))))]; exact h k hm
    have c2 : (∀ a b, s.exactlyOne = some (a, b) →
          hasKey ((ms.map (memberOf T N)).filter (fun m => relevant s m.key)) a ≠
          hasKey ((ms.map (memberOf T N)).filter (fun m => relevant s m.key)) b) ↔
        (∀ a b, s.exactlyOne = some (a, b) →
          hasKey (ms.map (memberOf T N)) a ≠ hasKey (ms.map (memberOf T N)) b) := by
      have r : ∀ a b, s.exactlyOne = some (a, b) → relevant s a = true ∧ relevant s b = true := by
        intro a b e
        constructor
        · refine hrel.2 (.inr (.inr (.inl ?_)))
          rw [e]; simp
        · refine hrel.2 (.inr (.inr (.inl ?_)))
          rw [e]; simp
      constructor
      · intro h a b e
        have := h a b e
        rwa [hk a (r a b e).1, hk b (r a b e).2] at this
      · intro h a b e
        rw [hk a (r a b e).1, hk b (r a b e).2]
        exact h a b e
    have c3 : ∀ c ∈ s.consts, GoMap.get? ((rawMap (ms.map (memberOf T N))).filter (fun p => relevant s p.1)) c.1 =
        GoMap.get? (rawMap (ms.map (memberOf T N))) c.1 := fun c hc =>
      get?_filter (hrel.2 (.inr (.inr (.inr (.inl (List.any_eq_true.2 ⟨c, hc, by simp⟩))))))
    have c4 : ∀ c ∈ s.notConsts, GoMap.get? ((rawMap (ms.map (memberOf T N))).filter (fun p => relevant s p.1)) c.1 =
        GoMap.get? (rawMap (ms.map (memberOf T N))) c.1 := fun c hc =>
      get?_filter (hrel.2 (.inr (.inr (.inr (.inr (.inl (List.any_eq_true.2 ⟨c, hc, by simp⟩)))))))
    have c5 : (∀ k ∈ s.forbid, hasKey ((ms.map (memberOf T N)).filter (fun m => relevant s m.key)) k = false) ↔
        (∀ k ∈ s.forbid, hasKey (ms.map (memberOf T N)) k = false) := by
      have r : ∀ k ∈ s.forbid, relevant s k = true := fun k hm =>
        hrel.2 (.inr (.inr (.inr (.inr (.inr (.inl (by simpa using hm)))))))
      constructor
      · intro h k hm
        rw [← hk k (r k hm)]; exact h k hm
      · intro h k hm
        rw [hk k (r k hm)]; exact h k hm
    rw [c1, c2, c5]
    constructor
    · rintro ⟨a, b, c, d, e, f⟩
      exact ⟨a, b, fun x hx m hm => c x hx m (by rw [c3 x hx]; exact hm),
        fun x hx m hm => d x hx m (by rw [c4 x hx]; exact hm), e, f⟩
    · rintro ⟨a, b, c, d, e, f⟩
      exact ⟨a, b, fun x hx m hm => c x hx m (by rw [← c3 x hx]; exact hm),
        fun x hx m hm => d x hx m (by rw [← c4 x hx]; exact hm), e, f⟩
  have e3 : decodeRest s ((ms.map (memberOf T N)).filter (fun m => relevant s m.key)) =
      decodeRest s (ms.map (memberOf T N)) := by
    unfold decodeRest
    simp only [h5, h4, Bool.false_and]
    have : mapAll (fun q => (decodeEntries q.ty ((restOf s ((ms.map (memberOf T N)).filter
            (fun m => relevant s m.key))).filter (fun p => q.pat.matches p.1))).map (fun w => (q.go, w))) s.patterns =
        mapAll (fun q => (decodeEntries q.ty ((restOf s (ms.map (memberOf T N))).filter
            (fun p => q.pat.matches p.1))).map (fun w => (q.go, w))) s.patterns := by
      apply mapAll_congr
      intro q hq
      congr 2
      unfold restOf
      rw [rawMap_filter]
      simp only [List.filter_filter]
      apply List.filter_congr
      intro p _
      cases hm : q.pat.matches p.1 with
      | false => simp
      | true =>
        have : relevant s p.1 = true := hrel.2 (.inr (.inr (.inr (.inr (.inr (.inr (.inr
          (List.any_eq_true.2 ⟨q, hq, hm⟩))))))))
        simp [this]
    rw [this]
  have e4 : rememberNull s ((ms.map (memberOf T N)).filter (fun m => relevant s m.key)) =
      rememberNull s (ms.map (memberOf T N)) := by
    funext p
    unfold rememberNull
    cases p.2 with
    | nil =>
      simp only
      have : s.nulls.any (fun n => n.1 == p.1 &&
            hasKey ((ms.map (memberOf T N)).filter (fun m => relevant s m.key)) n.2) =
          s.nulls.any (fun n => n.1 == p.1 && hasKey (ms.map (memberOf T N)) n.2) := by
        have r : ∀ n ∈ s.nulls, hasKey ((ms.map (memberOf T N)).filter (fun m => relevant s m.key)) n.2 =
            hasKey (ms.map (memberOf T N)) n.2 := fun n hn =>
          hasKey_filter (hrel.2 (.inr (.inr (.inr (.inr (.inr (.inr (.inl
            (List.any_eq_true.2 ⟨n, hn, by simp⟩)))))))))
        rw [Bool.eq_iff_iff]
        simp only [List.any_eq_true, Bool.and_eq_true]
        constructor
        · rintro ⟨n, hn, a, b⟩; exact ⟨n, hn, a, by rw [← r n hn]; exact b⟩
        · rintro ⟨n, hn, a, b⟩; exact ⟨n, hn, a, by rw [r n hn]; exact b⟩
      rw [this]
    | _ => rfl
  simp only [h1, h2, h3, view_members, membersOf, e1, hmap, e2, e3, e4]
  rfl

/-! ## Names of fields -/

/-- The Go names of the fields of a struct, in order. -/
def Struct.names (s : Struct) : List String :=
  s.fields.map Field.go ++ s.embeds.map Hidden.go ++ s.oneOf.map Hidden.go ++ s.patterns.map PatField.go ++
    (match s.additional with
      | some a => [a.go]
      | none => [])

theorem decodeFields_names {s : Struct} {v : View} {fvals : List (String × Val)}
    (h : decodeFields T s v = some fvals) : fvals.map Prod.fst = s.fields.map Field.go := by
  unfold decodeFields at h
  split at h
  · simp only [Option.some.injEq] at h
    subst h
    simp [Function.comp_def]
  · simp only [Option.some.injEq] at h
    subst h
    simp [Function.comp_def]
  · rename_i ms _
    generalize hl : s.fields = fs at h
    have key : ∀ (l : List Field) (r : List (String × Val)),
        mapAll (fun f => (fieldVal (fun k => fieldOf fs k == some f) f.ty (zero T f.ty) ms).map
          (fun w => (f.go, w))) l = some r → r.map Prod.fst = l.map Field.go := by
      intro l
      induction l with
      | nil => intro r h; simp [mapAll] at h; subst h; rfl
      | cons f l ih =>
        intro r h
        simp only [mapAll] at h
        split at h
        · rename_i a b ha hb
          simp only [Option.some.injEq] at h
          subst h
          rw [Option.map_eq_some_iff] at ha
          obtain ⟨w, _, rfl⟩ := ha
          simp only [List.map_cons, ih _ hb]
        · cases h
    exact key _ _ h
  · cases h

theorem decodeEmbeds_names {sub : Ty → Option Val} {es : List Hidden} {r : List (String × Val)}
    (h : decodeEmbeds sub es = some r) : r.map Prod.fst = es.map Hidden.go := by
  unfold decodeEmbeds at h
  induction es generalizing r with
  | nil => simp [mapAll] at h; subst h; rfl
  | cons f l ih =>
    simp only [mapAll] at h
    split at h
    · rename_i a b ha hb
      simp only [Option.some.injEq] at h
      subst h
      rw [Option.map_eq_some_iff] at ha
      obtain ⟨w, _, rfl⟩ := ha
      simp only [List.map_cons, ih hb]
    · cases h

theorem decodeOneOf_names {sub : Ty → Option Val} {es : List Hidden} {r : List (String × Val)}
    (h : decodeOneOf sub es = some r) : r.map Prod.fst = es.map Hidden.go := by
  unfold decodeOneOf at h
  split at h
  · rename_i e
    simp only [Option.some.injEq] at h
    subst h; subst e; rfl
  · split at h
    · simp only [Option.some.injEq] at h
      subst h
      simp [Function.comp_def]
    · cases h

theorem decodeRest_patterns {s : Struct} {ms : List Member} {r : List (String × Val)}
    (h : decodeRest s ms = some r) : ∃ pvals avals, r = pvals ++ avals ∧
      mapAll (fun q : PatField => (decodeEntries q.ty ((restOf s ms).filter (fun p => q.pat.matches p.1))).map
        (fun w => (q.go, w))) s.patterns = some pvals ∧
      avals.map Prod.fst = (match s.additional with
        | some a => [a.go]
        | none => []) := by
  unfold decodeRest at h
  simp only at h
  split at h
  · cases h
  · rename_i pvals hp
    split at h
    · rename_i a ha
      rw [Option.map_eq_some_iff] at h
      obtain ⟨w, _, rfl⟩ := h
      refine ⟨pvals, [(a.go, w)], rfl, hp, ?_⟩
      simp [ha]
    · rename_i ha
      split at h
      · cases h
      · simp only [Option.some.injEq] at h
        subst h
        exact ⟨pvals, [], by simp, hp, by simp [ha]⟩

theorem patterns_names {rest : List (String × Member)} {l : List PatField} {r : List (String × Val)}
    (h : mapAll (fun q : PatField => (decodeEntries q.ty (rest.filter (fun p => q.pat.matches p.1))).map
        (fun w => (q.go, w))) l = some r) : r.map Prod.fst = l.map PatField.go := by
  induction l generalizing r with
  | nil => simp [mapAll] at h; subst h; rfl
  | cons f l ih =>
    simp only [mapAll] at h
    split at h
    · rename_i a b ha hb
      simp only [Option.some.injEq] at h
      subst h
      rw [Option.map_eq_some_iff] at ha
      obtain ⟨w, _, rfl⟩ := ha
      simp only [List.map_cons, ih hb]
    · cases h

theorem rememberNull_fst {s : Struct} {ms : List Member} {p : String × Val} : (rememberNull s ms p).1 = p.1 := by
  unfold rememberNull
  split
  · split <;> rfl
  · rfl

theorem decode_names (hT : Ranked T) {n : String} {s : Struct} (hn : GoMap.get? T n = some (.struct s)) {j : Any}
    {w : Val} (h : decode T N (.named n) j = some w) : ∃ gs, w = .struct gs ∧ gs.map Prod.fst = s.names := by
  obtain ⟨_, fvals, evals, ovals, rvals, h1, h2, h3, _, h5, rfl⟩ := (decode_struct_some hT hn).1 h
  refine ⟨_, rfl, ?_⟩
  obtain ⟨pvals, avals, rfl, hp, ha⟩ := decodeRest_patterns h5
  have e : (fvals.map (rememberNull s (membersOf T N j))).map Prod.fst = fvals.map Prod.fst := by
    simp [Function.comp_def, rememberNull_fst]
  simp only [List.map_append, Struct.names, e, decodeFields_names h1, decodeEmbeds_names h2, decodeOneOf_names h3,
    patterns_names hp, ha, List.append_assoc]

/-! ## Extensions -/

theorem decode_pattern_entry (hT : Ranked T) {n : String} {s : Struct} (hn : GoMap.get? T n = some (.struct s))
    {ms : List (String × Any)} {w : Val} (h : decode T N (.named n) (.obj ms) = some w) {q : PatField}
    (hq : q ∈ s.patterns) {k : String} (hk : q.pat.matches k = true) {v : Any} (hv : Spec.lastValue ms k = some v)
    (h1 : k ∉ s.known) (h2 : ∀ c ∈ s.consts, c.1 ≠ k) (h3 : ∀ c ∈ s.notConsts, c.1 ≠ k) :
    ∃ gs es x, w = .struct gs ∧ (q.go, .map es) ∈ gs ∧ (k, x) ∈ es ∧ decode T N q.ty v = some x := by
  obtain ⟨_, fvals, evals, ovals, rvals, _, _, _, _, h5, rfl⟩ := (decode_struct_some hT hn).1 h
  obtain ⟨pvals, avals, rfl, hp, _⟩ := decodeRest_patterns h5
  obtain ⟨y, hy, e⟩ := mapAll_mem hp q hq
  rw [Option.map_eq_some_iff] at e
  obtain ⟨mv, he, rfl⟩ := e
  have hin : (k, memberOf T N (k, v)) ∈ (restOf s (membersOf T N (.obj ms))).filter (fun p => q.pat.matches p.1) := by
    refine List.mem_filter.2 ⟨List.mem_filter.2 ⟨?_, ?_⟩, hk⟩
    · apply GoMap.mem_of_get?
      show GoMap.get? (rawMap (ms.map (memberOf T N))) k = _
      rw [rawMap_get?, hv]
      rfl
    · simp only [Bool.not_eq_eq_eq_not, Bool.not_true, Bool.or_eq_false_iff, List.any_eq_false, beq_iff_eq]
      refine ⟨⟨?_, fun c hc => h2 c hc⟩, fun c hc => h3 c hc⟩
      simpa using h1
  unfold decodeEntries at he
  rw [Option.map_eq_some_iff] at he
  obtain ⟨es, hes, rfl⟩ := he
  obtain ⟨z, hz, e⟩ := mapAll_mem hes _ hin
  rw [Option.map_eq_some_iff] at e
  obtain ⟨x, hx, rfl⟩ := e
  refine ⟨_, es, x, rfl, ?_, hz, hx⟩
  have : madeMap es = .map es := by
    cases es with
    | nil => cases hz
    | cons a l => rfl
  rw [← this]
  simp only [List.mem_append]
  exact .inr (.inl hy)

theorem unionJ_mem {js : List Any} {j : Any} (h : unionJ js = some j) {ms : List (String × Any)}
    (hms : .obj ms ∈ js) {p : String × Any} (hp : p ∈ ms) : ∃ ms', j = .obj ms' ∧ p ∈ ms' := by
  unfold unionJ at h
  have hin : Any.obj ms ∈ js.filter (fun j => match j with
    | .null => false
    | .obj [] => false
    | _ => true) := by
    refine List.mem_filter.2 ⟨hms, ?_⟩
    cases ms with
    | nil => cases hp
    | cons a l => rfl
  generalize js.filter (fun j => match j with
    | .null => false
    | .obj [] => false
    | _ => true) = fs at h hin
  simp only at h
  split at h
  · cases hin
  · simp only [Option.some.injEq] at h
    subst h
    rcases List.mem_cons.1 hin with e | e
    · exact ⟨ms, e.symm, hp⟩
    · cases e
  · rw [Option.map_eq_some_iff] at h
    obtain ⟨l, hl, rfl⟩ := h
    obtain ⟨y, hy, e⟩ := mapAll_mem hl _ hin
    simp only [Option.some.injEq] at e
    subst e
    exact ⟨_, rfl, List.mem_flatten.2 ⟨ms, hy, hp⟩⟩

theorem slotOf_get {gs : List (String × Val)} {go : String} {v : Val} (hnd : (gs.map Prod.fst).Nodup)
    (h : (go, v) ∈ gs) : slotOf (gs.map (slotFor T)) go = some (slotFor T (go, v)) := by
  induction gs with
  | nil => cases h
  | cons p gs ih =>
    obtain ⟨a, b⟩ := p
    simp only [List.map_cons, List.nodup_cons] at hnd
    unfold slotOf
    rw [List.map_cons, List.find?_cons]
    rcases List.mem_cons.1 h with e | h
    · cases e; simp [slotFor]
    · have : a ≠ go := fun e => hnd.1 (e ▸ List.mem_map_of_mem (f := Prod.fst) h)
      have e : ((slotFor T (a, b)).go == go) = false := by simp [slotFor, this]
      rw [e]
      exact ih hnd.2 h

theorem encode_pattern_entry {n : String} {s : Struct} (hn : GoMap.get? T n = some (.struct s))
    {gs : List (String × Val)} (hnd : (gs.map Prod.fst).Nodup) {go : String} (hgo : .hidden go ∈ s.parts) {ty : Ty}
    (hty : hiddenTy s go = some (.map ty)) {es : List (String × Val)} (hes : (go, .map es) ∈ gs) {k : String} {x : Val}
    (hx : (k, x) ∈ es) {j : Any} (h : encode T (.named n) (.struct gs) = some j) :
    ∃ ms a, j = .obj ms ∧ (k, a) ∈ ms ∧ encode T ty x = some a := by
  rw [encode_struct hn] at h
  split at h
  · rename_i js hjs
    obtain ⟨y, hy, e⟩ := mapAll_mem hjs _ hgo
    simp only [encodePart, slotOf_get hnd hes, hty] at e
    change encode T (.map ty) (.map es) = some y at e
    rw [encode_map, Option.map_eq_some_iff] at e
    obtain ⟨ms, hms, rfl⟩ := e
    obtain ⟨z, hz, e⟩ := mapAll_mem hms _ hx
    rw [Option.map_eq_some_iff] at e
    obtain ⟨a, ha, rfl⟩ := e
    obtain ⟨ms', rfl, hm⟩ := unionJ_mem h hy hz
    exact ⟨ms', a, rfl, hm, ha⟩
  · cases h

/-! ## Alternatives -/

theorem filter_eq_single {α : Type} [DecidableEq α] {l : List α} (hnd : l.Nodup) {e : α} (he : e ∈ l) :
    l.filter (fun x => x == e) = [e] := by
  induction l with
  | nil => cases he
  | cons x es ih =>
    rw [List.nodup_cons] at hnd
    rcases List.mem_cons.1 he with h | h
    · subst h
      rw [List.filter_cons, if_pos (by simp)]
      congr 1
      rw [List.filter_eq_nil_iff]
      intro y hy
      simp only [beq_iff_eq]
      exact fun h => hnd.1 (h ▸ hy)
    · have : x ≠ e := fun e' => hnd.1 (e' ▸ h)
      rw [List.filter_cons, if_neg (by simpa using this)]
      exact ih hnd.2 h

theorem decodeOneOf_some {sub : Ty → Option Val} {es : List Hidden} (hne : es ≠ []) (hnd : (es.map Hidden.go).Nodup)
    {r : List (String × Val)} :
    decodeOneOf sub es = some r ↔ ∃ e ∈ es, ∃ v, sub e.ty = some v ∧ (∀ e' ∈ es, e'.go ≠ e.go → sub e'.ty = none) ∧
      r = es.map (fun e' => (e'.go, if e'.go = e.go then v else .nil)) := by
  have huniq : ∀ a ∈ es, ∀ b ∈ es, a.go = b.go → a = b := by
    clear hne
    induction es with
    | nil => intro a ha; cases ha
    | cons x es ih =>
      simp only [List.map_cons, List.nodup_cons] at hnd
      intro a ha b hb e
      rcases List.mem_cons.1 ha with ha' | ha' <;> rcases List.mem_cons.1 hb with hb' | hb'
      · rw [ha', hb']
      · subst ha'; exact absurd (e ▸ List.mem_map_of_mem (f := Hidden.go) hb') hnd.1
      · subst hb'; exact absurd (e ▸ List.mem_map_of_mem (f := Hidden.go) ha') hnd.1
      · exact ih hnd.2 a ha' b hb' e
  have hnode : es.Nodup := List.Pairwise.of_map Hidden.go (fun a b h e => h (by rw [e])) hnd
  unfold decodeOneOf
  rw [if_neg hne]
  constructor
  · intro h
    split at h
    · rename_i hlen
      simp only [Option.some.injEq] at h
      subst h
      obtain ⟨e, he⟩ := List.length_eq_one_iff.1 hlen
      have hmem : e ∈ es ∧ (sub e.ty).isSome = true := by
        have : e ∈ es.filter (fun e => (sub e.ty).isSome) := by rw [he]; simp
        exact List.mem_filter.1 this
      obtain ⟨v, hv⟩ := Option.isSome_iff_exists.1 hmem.2
      have hother : ∀ e' ∈ es, e'.go ≠ e.go → sub e'.ty = none := by
        intro e' he' hgo
        cases hs : sub e'.ty with
        | none => rfl
        | some x =>
          have : e' ∈ es.filter (fun e => (sub e.ty).isSome) := List.mem_filter.2 ⟨he', by rw [hs]; rfl⟩
          rw [he, List.mem_singleton] at this
          exact absurd (congrArg Hidden.go this) hgo
      refine ⟨e, hmem.1, v, hv, hother, ?_⟩
      apply List.map_congr_left
      intro e' he'
      by_cases hgo : e'.go = e.go
      · have := huniq e' he' e hmem.1 hgo
        subst this
        simp [hv]
      · rw [if_neg hgo, hother e' he' hgo]
        rfl
    · cases h
  · rintro ⟨e, he, v, hv, hother, rfl⟩
    have hf : es.filter (fun e => (sub e.ty).isSome) = [e] := by
      have hcong : es.filter (fun e => (sub e.ty).isSome) = es.filter (fun x => x == e) := by
        apply List.filter_congr
        intro x hx
        by_cases hxe : x = e
        · subst hxe; simp [hv]
        · have : sub x.ty = none := hother x hx (fun h => hxe (huniq x hx e he h))
          simp [this, hxe]
      rw [hcong]
      exact filter_eq_single hnode he
    rw [hf, if_pos (by simp)]
    congr 1
    apply List.map_congr_left
    intro e' he'
    by_cases hgo : e'.go = e.go
    · have := huniq e' he' e he hgo
      subst this
      simp [hv]
    · rw [if_neg hgo, hother e' he' hgo]
      rfl

end

end Verif.Codec
