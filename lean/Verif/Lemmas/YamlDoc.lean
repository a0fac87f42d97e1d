import Verif.Spec.YamlDoc
import Verif.Props.Yaml
import Verif.Lemmas.Order
import Verif.Lemmas.Distinct

/-! What comes back from YAML is the JSON value up to order and numbers. -/

namespace Verif
open Codec Spec

/-- A permutation can be moved behind an element-wise relation. -/
theorem each_perm {α β : Type} {R : α → β → Prop} {l l' : List α} (hp : l.Perm l') :
    ∀ {r : List β}, Each R l' r → ∃ s, Each R l s ∧ s.Perm r := by
  induction hp with
  | nil => intro r h; exact ⟨r, h, .refl _⟩
  | cons a _ ih =>
    intro r h
    cases h with
    | @cons _ b _ r' h1 h2 =>
      obtain ⟨s, hs, hp⟩ := ih h2
      exact ⟨b :: s, .cons h1 hs, hp.cons b⟩
  | swap a b l =>
    intro r h
    cases h with
    | @cons _ x _ r' h1 h2 =>
      cases h2 with
      | @cons _ y _ r'' h2 h3 => exact ⟨y :: x :: r'', .cons h2 (.cons h1 h3), .swap _ _ _⟩
  | trans _ _ ih1 ih2 =>
    intro r h
    obtain ⟨s, hs, hp⟩ := ih2 h
    obtain ⟨t, ht, hq⟩ := ih1 hs
    exact ⟨t, ht, hq.trans hp⟩

theorem each_trans {α β γ : Type} {R : α → β → Prop} {S : β → γ → Prop} {Q : α → γ → Prop} {l : List α} {m : List β}
    (h : Each R l m) : ∀ {r : List γ}, Each S m r → (∀ a ∈ l, ∀ b c, R a b → S b c → Q a c) → Each Q l r := by
  induction h with
  | nil => intro r h' _; cases h'; exact .nil
  | cons h1 _ ih =>
    intro r h' hq
    cases h' with
    | cons h2 h3 =>
      exact .cons (hq _ List.mem_cons_self _ _ h1 h2) (ih h3 fun a ha => hq a (List.mem_cons_of_mem _ ha))

theorem convertEntries_each (sprint : Yv → String) (o : YOrder) (path : List Nat) : ∀ (i : Nat) (ns : List (Yv × Yv)),
    Each (fun e q => q.1 = keyText sprint e.1 ∧ ∃ path', q.2 = convertMap sprint o path' e.2) ns
      (convertEntries sprint o path i ns)
  | _, [] => by rw [convertEntries]; exact .nil
  | i, (k, v) :: ns => by
    rw [convertEntries]
    exact .cons ⟨(keyText_eq _ _).symm, _, rfl⟩ (convertEntries_each sprint o path (i + 1) ns)

theorem marshalDynMembers_mapAll (sj : Any → Option Any) (ms : List (String × Yv)) :
    marshalDynMembers sj ms = mapAll (fun p => (marshalDyn sj p.2).map (fun y => (p.1, y))) ms := by
  induction ms with
  | nil => simp [marshalDynMembers, mapAll]
  | cons x xs ih =>
    obtain ⟨k, x⟩ := x
    simp only [marshalDynMembers, mapAll, ih]
    cases marshalDyn sj x <;>
      cases mapAll (fun p : String × Yv => (marshalDyn sj p.2).map (fun y => (p.1, y))) xs <;> rfl

theorem mapAll_each_some {α β γ : Type} {R : α → β → Prop} {S : α → γ → Prop} {f : β → Option γ}
    {l : List α} {m : List β} (h : Each R l m) (hf : ∀ a b, R a b → ∃ c, f b = some c ∧ S a c) :
    ∃ r, mapAll f m = some r ∧ Each S l r := by
  induction h with
  | nil => exact ⟨[], rfl, .nil⟩
  | cons h1 _ ih =>
    obtain ⟨c, hc, hs⟩ := hf _ _ h1
    obtain ⟨r, hr, he⟩ := ih
    exact ⟨c :: r, by simp only [mapAll, hc, hr], .cons hs he⟩

section
variable {sprint : Yv → String} {o : YOrder} {sj : Any → Option Any} {Back : String → String → Prop}

mutual
theorem convert_stands : ∀ (a : Any) (y : Yv) (path : List Nat), Distinct a → Stands sprint sj Back a y →
    ∃ b, marshalDyn sj (convertMap sprint o path y) = some b ∧ Reordered Back a b
  | .null, y, path, _, h => by
    simp only [Stands] at h
    obtain ⟨s, rfl, h⟩ := h
    exact ⟨_, by rw [convertMap, marshalDyn, h], rfl⟩
  | .bool b, y, path, _, h => by
    simp only [Stands] at h
    obtain ⟨s, rfl, h⟩ := h
    exact ⟨_, by rw [convertMap, marshalDyn, h], rfl⟩
  | .num x, y, path, _, h => by
    simp only [Stands] at h
    obtain ⟨s, z, rfl, h, hb⟩ := h
    exact ⟨_, by rw [convertMap, marshalDyn, h], z, rfl, hb⟩
  | .str b, y, path, _, h => by
    simp only [Stands] at h
    obtain ⟨s, rfl, h⟩ := h
    exact ⟨_, by rw [convertMap, marshalDyn, h], rfl⟩
  | .arr xs, y, path, hd, h => by
    simp only [Stands] at h
    obtain ⟨ys, rfl, h⟩ := h
    obtain ⟨bs, h1, h2⟩ := convert_standsList xs ys path 0 hd h
    exact ⟨.arr bs, by rw [convertMap, marshalDyn, h1]; rfl, bs, rfl, h2⟩
  | .obj ms, y, path, hd, h => by
    simp only [Stands] at h
    obtain ⟨ps, ns, rfl, h1, h2⟩ := h
    have e1 := convert_standsMembers ms ps hd.2 h1
    obtain ⟨fs, e2, p2⟩ := each_perm h2 (convertEntries_each sprint o path 0 ns)
    have e3 : Each (fun (p : String × Any) (q : String × Yv) => q.1 = p.1 ∧
        ∃ b, marshalDyn sj q.2 = some b ∧ Reordered Back p.2 b) ms fs := by
      refine each_trans e1 e2 ?_
      rintro p _ e q ⟨hk, hall⟩ ⟨hq, path', hp'⟩
      exact ⟨hq.trans hk, by rw [hp']; exact hall path'⟩
    have hkeys : fs.map Prod.fst = ms.map Prod.fst := (Each.map_eq (fun a b h => h.1.symm) e3).symm
    obtain ⟨bs, hbs, e4⟩ := mapAll_each_some (S := MemRel Back)
      (f := fun p : String × Yv => (marshalDyn sj p.2).map (fun y => (p.1, y))) e3 (by
        rintro p q ⟨hk, b, hb, hr⟩
        exact ⟨(q.1, b), by rw [hb]; rfl, hk.symm, hr⟩)
    have hp : fs.Perm (o.ord path (convertEntries sprint o path 0 ns)) := p2.trans (o.perm _ _).symm
    have hnd : ((o.ord path (convertEntries sprint o path 0 ns)).map Prod.fst).Nodup := by
      refine ((hp.map Prod.fst).nodup_iff).1 ?_
      rw [hkeys]
      exact hd.1
    have hboth := mapAll_perm (f := fun p : String × Yv => (marshalDyn sj p.2).map (fun y => (p.1, y))) hp
    rw [hbs] at hboth
    rw [convertMap, foldl_set_distinct _ [] (by simpa using hnd), List.nil_append, marshalDyn, marshalDynMembers_mapAll]
    cases hm : mapAll (fun p : String × Yv => (marshalDyn sj p.2).map (fun y => (p.1, y)))
        (o.ord path (convertEntries sprint o path 0 ns)) with
    | none => rw [hm] at hboth; exact False.elim hboth
    | some cs =>
      rw [hm] at hboth
      exact ⟨.obj cs, rfl, obj_rel.2 ⟨cs, rfl, bs, e4, hboth⟩⟩
theorem convert_standsList : ∀ (xs : List Any) (ys : List Yv) (path : List Nat) (i : Nat), DistinctList xs →
    StandsList sprint sj Back xs ys →
    ∃ bs, marshalDynList sj (convertList sprint o path i ys) = some bs ∧ ReorderedList Back xs bs
  | [], ys, path, i, _, h => by
    simp only [StandsList] at h
    exact ⟨[], by rw [h, convertList, marshalDynList], rfl⟩
  | x :: xs, ys, path, i, hd, h => by
    simp only [StandsList] at h
    obtain ⟨y, rest, rfl, h1, h2⟩ := h
    obtain ⟨b, hb, hr⟩ := convert_stands x y (i :: path) hd.1 h1
    obtain ⟨bs, hbs, hrs⟩ := convert_standsList xs rest path (i + 1) hd.2 h2
    exact ⟨b :: bs, by simp only [convertList, marshalDynList, hb, hbs], b, bs, rfl, hr, hrs⟩
theorem convert_standsMembers : ∀ (ms : List (String × Any)) (ps : List (Yv × Yv)), DistinctMembers ms →
    StandsMembers sprint sj Back ms ps →
    Each (fun p e => keyText sprint e.1 = p.1 ∧
      ∀ path, ∃ b, marshalDyn sj (convertMap sprint o path e.2) = some b ∧ Reordered Back p.2 b) ms ps
  | [], ps, _, h => by
    simp only [StandsMembers] at h
    rw [h]
    exact .nil
  | (k, x) :: ms, ps, hd, h => by
    simp only [StandsMembers] at h
    obtain ⟨key, y, rest, rfl, hk, h1, h2⟩ := h
    exact .cons ⟨hk, fun path => convert_stands x y path hd.1 h1⟩ (convert_standsMembers ms rest hd.2 h2)
end

end

/-! ## Reading as `interface{}` -/

mutual
theorem decodeAny_reordered {N : Nums} : ∀ (j a : Any), Distinct j → decodeAny N j = some a →
    Reordered (fun x y => N.f64 x = some y) j a
  | .null, a, _, h => by simp only [decodeAny, Option.some.injEq] at h; rw [← h]; rfl
  | .bool b, a, _, h => by simp only [decodeAny, Option.some.injEq] at h; rw [← h]; rfl
  | .str b, a, _, h => by simp only [decodeAny, Option.some.injEq] at h; rw [← h]; rfl
  | .num x, a, _, h => by
    simp only [decodeAny] at h
    rw [Option.map_eq_some_iff] at h
    obtain ⟨y, hy, rfl⟩ := h
    exact ⟨y, rfl, hy⟩
  | .arr xs, a, hd, h => by
    simp only [decodeAny] at h
    rw [Option.map_eq_some_iff] at h
    obtain ⟨ys, hy, rfl⟩ := h
    exact ⟨ys, rfl, decodeAnys_reordered xs ys hd hy⟩
  | .obj ms, a, hd, h => by
    simp only [decodeAny] at h
    rw [Option.map_eq_some_iff] at h
    obtain ⟨ds, hy, rfl⟩ := h
    have hk : (ds.map Prod.fst).Nodup := by rw [decodeAnyMembers_keys hy]; exact hd.1
    rw [lastWins_nodup hk]
    exact ⟨ds, ds, rfl, decodeAnyMembers_reordered ms ds hd.2 hy, .refl _⟩
theorem decodeAnys_reordered {N : Nums} : ∀ (xs ys : List Any), DistinctList xs → decodeAnys N xs = some ys →
    ReorderedList (fun x y => N.f64 x = some y) xs ys
  | [], ys, _, h => by simp only [decodeAnys, Option.some.injEq] at h; rw [← h]; rfl
  | x :: xs, ys, hd, h => by
    simp only [decodeAnys] at h
    split at h
    · rename_i y zs h1 h2
      exact ⟨y, zs, (Option.some.inj h).symm, decodeAny_reordered x y hd.1 h1, decodeAnys_reordered xs zs hd.2 h2⟩
    · cases h
theorem decodeAnyMembers_reordered {N : Nums} : ∀ (xs ys : List (String × Any)), DistinctMembers xs →
    decodeAnyMembers N xs = some ys → ReorderedMembers (fun x y => N.f64 x = some y) xs ys
  | [], ys, _, h => by simp only [decodeAnyMembers, Option.some.injEq] at h; rw [← h]; rfl
  | (k, x) :: xs, ys, hd, h => by
    simp only [decodeAnyMembers] at h
    split at h
    · rename_i y zs h1 h2
      exact ⟨y, zs, (Option.some.inj h).symm, decodeAny_reordered x y hd.1 h1,
        decodeAnyMembers_reordered xs zs hd.2 h2⟩
    · cases h
end

mutual
theorem decodeAny_literals {N : Nums} : ∀ (j : Any), (∀ x ∈ literals j, ∃ y, N.f64 x = some y) →
    ∃ a, decodeAny N j = some a
  | .null, _ => ⟨_, rfl⟩
  | .bool _, _ => ⟨_, rfl⟩
  | .str _, _ => ⟨_, rfl⟩
  | .num x, h => by
    obtain ⟨y, hy⟩ := h x (by simp [literals])
    exact ⟨.num y, by simp [decodeAny, hy]⟩
  | .arr xs, h => by
    obtain ⟨ys, hy⟩ := decodeAnys_literals xs h
    exact ⟨.arr ys, by simp [decodeAny, hy]⟩
  | .obj ms, h => by
    obtain ⟨ys, hy⟩ := decodeAnyMembers_literals ms h
    exact ⟨.obj (lastWins ys), by simp [decodeAny, hy]⟩
theorem decodeAnys_literals {N : Nums} : ∀ (xs : List Any), (∀ x ∈ literalsList xs, ∃ y, N.f64 x = some y) →
    ∃ a, decodeAnys N xs = some a
  | [], _ => ⟨_, rfl⟩
  | x :: xs, h => by
    obtain ⟨y, hy⟩ := decodeAny_literals x (fun z hz => h z (by simp [literalsList, hz]))
    obtain ⟨ys, hys⟩ := decodeAnys_literals xs (fun z hz => h z (by simp [literalsList, hz]))
    exact ⟨y :: ys, by simp only [decodeAnys, hy, hys]⟩
theorem decodeAnyMembers_literals {N : Nums} : ∀ (xs : List (String × Any)),
    (∀ x ∈ literalsMembers xs, ∃ y, N.f64 x = some y) → ∃ a, decodeAnyMembers N xs = some a
  | [], _ => ⟨_, rfl⟩
  | (k, x) :: xs, h => by
    obtain ⟨y, hy⟩ := decodeAny_literals x (fun z hz => h z (by simp [literalsMembers, hz]))
    obtain ⟨ys, hys⟩ := decodeAnyMembers_literals xs (fun z hz => h z (by simp [literalsMembers, hz]))
    exact ⟨(k, y) :: ys, by simp only [decodeAnyMembers, hy, hys]⟩
end

/-! ## Composition -/

section
variable {L M Q : String → String → Prop}

mutual
theorem reordered_trans : ∀ (a b c : Any), Reordered L a b → Reordered M b c →
    (∀ x ∈ literals a, ∀ y z, L x y → M y z → Q x z) → Reordered Q a c
  | .null, b, c, h, h', _ => by simp only [Reordered] at h; subst h; simpa only [Reordered] using h'
  | .bool _, b, c, h, h', _ => by simp only [Reordered] at h; subst h; simpa only [Reordered] using h'
  | .str _, b, c, h, h', _ => by simp only [Reordered] at h; subst h; simpa only [Reordered] using h'
  | .num x, b, c, h, h', hq => by
    simp only [Reordered] at h
    obtain ⟨y, rfl, hl⟩ := h
    simp only [Reordered] at h' ⊢
    obtain ⟨z, rfl, hm⟩ := h'
    exact ⟨z, rfl, hq x (by simp [literals]) y z hl hm⟩
  | .arr xs, b, c, h, h', hq => by
    simp only [Reordered] at h
    obtain ⟨ys, rfl, h⟩ := h
    simp only [Reordered] at h' ⊢
    obtain ⟨zs, rfl, h'⟩ := h'
    exact ⟨zs, rfl, reorderedList_trans xs ys zs h h' hq⟩
  | .obj ms, b, c, h, h', hq => by
    simp only [Reordered] at h
    obtain ⟨ps, ns, rfl, h1, h2⟩ := h
    simp only [Reordered] at h'
    obtain ⟨qs, rs, rfl, h3, h4⟩ := h'
    obtain ⟨ts, h5, h6⟩ := each_perm h2 (reorderedMembers_each.1 h3)
    exact ⟨ts, rs, rfl, reorderedMembers_trans ms ps ts h1 (reorderedMembers_each.2 h5) hq, h6.trans h4⟩
theorem reorderedList_trans : ∀ (a b c : List Any), ReorderedList L a b → ReorderedList M b c →
    (∀ x ∈ literalsList a, ∀ y z, L x y → M y z → Q x z) → ReorderedList Q a c
  | [], b, c, h, h', _ => by
    simp only [ReorderedList] at h
    subst h
    simpa only [ReorderedList] using h'
  | x :: xs, b, c, h, h', hq => by
    simp only [ReorderedList] at h
    obtain ⟨y, ys, rfl, h1, h2⟩ := h
    simp only [ReorderedList] at h'
    obtain ⟨z, zs, rfl, h3, h4⟩ := h'
    exact ⟨z, zs, rfl, reordered_trans x y z h1 h3 (fun w hw => hq w (by simp [literalsList, hw])),
      reorderedList_trans xs ys zs h2 h4 (fun w hw => hq w (by simp [literalsList, hw]))⟩
theorem reorderedMembers_trans : ∀ (a b c : List (String × Any)), ReorderedMembers L a b → ReorderedMembers M b c →
    (∀ x ∈ literalsMembers a, ∀ y z, L x y → M y z → Q x z) → ReorderedMembers Q a c
  | [], b, c, h, h', _ => by
    simp only [ReorderedMembers] at h
    subst h
    simpa only [ReorderedMembers] using h'
  | (k, x) :: xs, b, c, h, h', hq => by
    simp only [ReorderedMembers] at h
    obtain ⟨y, ys, rfl, h1, h2⟩ := h
    simp only [ReorderedMembers] at h'
    obtain ⟨z, zs, rfl, h3, h4⟩ := h'
    exact ⟨z, zs, rfl, reordered_trans x y z h1 h3 (fun w hw => hq w (by simp [literalsMembers, hw])),
      reorderedMembers_trans xs ys zs h2 h4 (fun w hw => hq w (by simp [literalsMembers, hw]))⟩
end

end

theorem decodeAny_obj {N : Nums} {j : Any} {items : List (String × Any)} (h : decodeAny N j = some (.obj items)) :
    ∃ ms, j = .obj ms := by
  cases j with
  | obj ms => exact ⟨ms, rfl⟩
  | num x => simp only [decodeAny] at h; rw [Option.map_eq_some_iff] at h; obtain ⟨_, _, h⟩ := h; cases h
  | arr x => simp only [decodeAny] at h; rw [Option.map_eq_some_iff] at h; obtain ⟨_, _, h⟩ := h; cases h
  | _ => simp [decodeAny] at h

section
variable {T : Table} {N : Nums} {Y : YamlLib} {sprint : Yv → String} {o : YOrder} {sj : Any → Option Any}
  {Back : String → String → Prop} {v : Val} {ms items : List (String × Any)}

/-- What the document is read back from YAML as: the items up to order. -/
theorem yaml_items (hj : encode T (.named "Spec") v = some (.obj ms)) (hd : Distinct (.obj ms))
    (hany : decodeAny N (.obj ms) = some (.obj items)) (hY : Faithful Y sprint sj Back items) :
    ∃ text b, marshalYAML T N Y v = some text ∧
      unmarshalYAML T N Y sprint o sj text = decode T N (.named "Spec") b ∧ Reordered Back (.obj items) b := by
  obtain ⟨text, y, ht, hy, hst⟩ := hY
  obtain ⟨b, hb, hr⟩ := convert_stands (o := o) _ _ [] (decodeAny_distinct hany) hst
  refine ⟨text, b, ?_, by simp only [unmarshalYAML, hy, hb], hr⟩
  have h := hany
  simp only [decodeAny] at h
  rw [Option.map_eq_some_iff] at h
  obtain ⟨ds, hds, e⟩ := h
  have hk : (ds.map Prod.fst).Nodup := by rw [decodeAnyMembers_keys hds]; exact hd.1
  rw [lastWins_nodup hk] at e
  cases e
  simp only [marshalYAML, hj, (C40_ordered N ms _ hds).2 hd.1, ht]

/-- The document is read as its items, with rounded numbers, are. -/
theorem yaml_read (hj : encode T (.named "Spec") v = some (.obj ms)) (hd : Distinct (.obj ms))
    (hany : decodeAny N (.obj ms) = some (.obj items)) (hc : ClearAs T (.named "Spec") (.obj items))
    (hB : ∀ x z, Back x z → ReadAlike N x z) (hY : Faithful Y sprint sj Back items) :
    ∃ text, marshalYAML T N Y v = some text ∧
      Both ReorderedVal (decode T N (.named "Spec") (.obj items)) (unmarshalYAML T N Y sprint o sj text) := by
  obtain ⟨text, b, h1, h2, h3⟩ := yaml_items (o := o) hj hd hany hY
  exact ⟨text, h1, by rw [h2]; exact decode_rel hB hc h3⟩

/-- The written document, read back from YAML, is the JSON document up to order and numbers that read alike. -/
theorem yaml_back (hj : encode T (.named "Spec") v = some (.obj ms)) (hc : ClearAs T (.named "Spec") (.obj ms))
    (hn : ∀ lit ∈ literals (.obj ms), Survives N Back lit)
    (hY : ∀ items, decodeAny N (.obj ms) = some (.obj items) → Faithful Y sprint sj Back items) :
    ∃ text, marshalYAML T N Y v = some text ∧
      Both ReorderedVal (decode T N (.named "Spec") (.obj ms)) (unmarshalYAML T N Y sprint o sj text) := by
  have hd := hc.1
  obtain ⟨items, hit⟩ := decodeAnyMembers_literals (N := N) ms
    (fun x hx => by obtain ⟨y, hy, _⟩ := hn x hx; exact ⟨y, hy⟩)
  have hk : (items.map Prod.fst).Nodup := by rw [decodeAnyMembers_keys hit]; exact hd.1
  have hany : decodeAny N (.obj ms) = some (.obj items) := by simp [decodeAny, hit, lastWins_nodup hk]
  obtain ⟨text, b, h1, h2, h3⟩ := yaml_items (o := o) hj hd hany (hY items hany)
  refine ⟨text, h1, ?_⟩
  rw [h2]
  refine decode_rel (L := ReadAlike N) (fun _ _ h => h) hc ?_
  refine reordered_trans _ _ _ (decodeAny_reordered _ _ hd hany) h3 ?_
  intro x hx y' z hxy hyz
  obtain ⟨w, hw, h⟩ := hn x hx
  rw [hw] at hxy
  cases hxy
  have := h z hyz
  exact ⟨this.1.symm, this.2.symm⟩

end

end Verif
