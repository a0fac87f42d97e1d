import Verif.Spec.Order
import Verif.Spec.Load
import Verif.Lemmas.RoundTripFacts
import Verif.Lemmas.LoadMain
import Verif.Lemmas.LoadSpecial

/-! Keys do not repeat in what is written. -/

namespace Verif
open Codec Spec

variable {T : Table} {N : Nums}

theorem distinctList_iff {xs : List Any} : DistinctList xs ↔ ∀ x ∈ xs, Distinct x := by
  induction xs with
  | nil => simp [DistinctList]
  | cons x xs ih => simp [DistinctList, ih]

theorem distinctMembers_iff {ms : List (String × Any)} : DistinctMembers ms ↔ ∀ p ∈ ms, Distinct p.2 := by
  induction ms with
  | nil => simp [DistinctMembers]
  | cons p ms ih => obtain ⟨k, x⟩ := p; simp [DistinctMembers, ih]

mutual
theorem decodeAny_distinct : ∀ {a b : Any}, decodeAny N a = some b → Distinct b
  | .null, b, h => by simp only [decodeAny, Option.some.injEq] at h; rw [← h]; trivial
  | .bool x, b, h => by simp only [decodeAny, Option.some.injEq] at h; rw [← h]; trivial
  | .str x, b, h => by simp only [decodeAny, Option.some.injEq] at h; rw [← h]; trivial
  | .num l, b, h => by
    simp only [decodeAny] at h
    rw [Option.map_eq_some_iff] at h
    obtain ⟨l', hl, rfl⟩ := h
    trivial
  | .arr xs, b, h => by
    simp only [decodeAny] at h
    rw [Option.map_eq_some_iff] at h
    obtain ⟨l', hl, rfl⟩ := h
    exact decodeAnys_distinct hl
  | .obj ms, b, h => by
    simp only [decodeAny] at h
    rw [Option.map_eq_some_iff] at h
    obtain ⟨l', hl, rfl⟩ := h
    refine ⟨lastWins_wf l', distinctMembers_iff.2 fun p hp => ?_⟩
    exact distinctMembers_iff.1 (decodeAnyMembers_distinct hl) p (mem_lastWins hp)
theorem decodeAnys_distinct : ∀ {xs ys : List Any}, decodeAnys N xs = some ys → DistinctList ys
  | [], ys, h => by simp only [decodeAnys, Option.some.injEq] at h; rw [← h]; trivial
  | x :: xs, ys, h => by
    simp only [decodeAnys] at h
    split at h
    · rename_i y zs hy hz
      simp only [Option.some.injEq] at h
      rw [← h]
      exact ⟨decodeAny_distinct hy, decodeAnys_distinct hz⟩
    · cases h
theorem decodeAnyMembers_distinct : ∀ {xs ys : List (String × Any)}, decodeAnyMembers N xs = some ys → DistinctMembers ys
  | [], ys, h => by simp only [decodeAnyMembers, Option.some.injEq] at h; rw [← h]; trivial
  | (k, x) :: xs, ys, h => by
    simp only [decodeAnyMembers] at h
    split at h
    · rename_i y zs hy hz
      simp only [Option.some.injEq] at h
      rw [← h]
      exact ⟨decodeAny_distinct hy, decodeAnyMembers_distinct hz⟩
    · cases h
end

/-! ## Members of structs -/

theorem nodup_append_of {α : Type} {a b : List α} (ha : a.Nodup) (hb : b.Nodup) (h : ∀ x ∈ a, x ∉ b) : (a ++ b).Nodup := by
  rw [List.nodup_append]
  exact ⟨ha, hb, fun x hx y hy e => h x hx (e ▸ hy)⟩

theorem nodup_flatMap_of {α β : Type} {l : List α} {g : α → List β} (hl : l.Nodup) (hg : ∀ x ∈ l, (g x).Nodup)
    (h : ∀ x ∈ l, ∀ y ∈ l, x ≠ y → ∀ z ∈ g x, z ∉ g y) : (l.flatMap g).Nodup := by
  induction l with
  | nil => exact List.nodup_nil
  | cons a l ih =>
    rw [List.nodup_cons] at hl
    rw [List.flatMap_cons]
    refine nodup_append_of (hg a List.mem_cons_self) (ih hl.2 (fun x hx => hg x (List.mem_cons_of_mem _ hx))
      (fun x hx y hy => h x (List.mem_cons_of_mem _ hx) y (List.mem_cons_of_mem _ hy))) ?_
    intro z hz hz'
    obtain ⟨b, hb, hz'⟩ := List.mem_flatMap.1 hz'
    exact h a List.mem_cons_self b (List.mem_cons_of_mem _ hb) (fun e => hl.1 (e ▸ hb)) z hz hz'

/-- A map with different keys whose entries are written without repeated keys. -/
def MapDistinct (T : Table) (ty : Ty) (v : Val) : Prop :=
  (keysOf v).Nodup ∧ ∀ p ∈ entries v, Distinct (enc T ty p.2)

theorem mapMembers_keys (ty : Ty) (v : Val) : (mapMembers T ty v).map Prod.fst = keysOf v := by
  rw [keysOf_entries]
  simp [mapMembers, Function.comp_def]

theorem mapMembers_distinct {ty : Ty} {v : Val} (h : MapDistinct T ty v) : ∀ p ∈ mapMembers T ty v, Distinct p.2 := by
  intro p hp
  unfold mapMembers at hp
  obtain ⟨x, hx, rfl⟩ := List.mem_map.1 hp
  exact h.2 x hx

theorem members_distinct {s : Struct} (hb : Base s) {val : String → Val} {E : List (String × Any)}
    (hF : ∀ f ∈ s.fields, omitted f (val f.go) = false → Distinct (enc T f.ty (val f.go)))
    (hP : ∀ q ∈ s.patterns, MapDistinct T q.ty (val q.go))
    (hpk : ∀ q ∈ s.patterns, ∀ k ∈ keysOf (val q.go), q.pat.matches k = true)
    (hA : ∀ a, s.additional = some a → MapDistinct T a.ty (val a.go))
    (hak : ∀ a, s.additional = some a → ∀ k ∈ keysOf (val a.go), ∀ q ∈ s.patterns, q.pat.matches k = false)
    (hE : (E.map Prod.fst).Nodup) (hEd : ∀ p ∈ E, Distinct p.2)
    (hEk : ∀ p ∈ E, p.1 ∉ s.consts.map Prod.fst ∧ fieldOf s.fields p.1 = none ∧ s.additional = none ∧
      ∀ q ∈ s.patterns, q.pat.matches p.1 = false) :
    Distinct (.obj (membersFor T s val E)) := by
  have ck : (constMembers s).map Prod.fst = s.consts.map Prod.fst := by simp [constMembers, Function.comp_def]
  have fk : ∀ k ∈ (fieldMembers T s val).map Prod.fst, ∃ f ∈ s.fields, f.key = k := by
    intro k hk
    obtain ⟨p, hp, rfl⟩ := List.mem_map.1 hk
    obtain ⟨f, hf, _, rfl⟩ := mem_fieldMembers.1 hp
    exact ⟨f, hf, rfl⟩
  have pk : ∀ k ∈ (patMembers T s val).map Prod.fst, ∃ q ∈ s.patterns, q.pat.matches k = true := by
    intro k hk
    obtain ⟨p, hp, rfl⟩ := List.mem_map.1 hk
    obtain ⟨q, hq, hp⟩ := List.mem_flatMap.1 hp
    exact ⟨q, hq, hpk q hq p.1 (mem_mapMembers hp)⟩
  have ak : ∀ k ∈ (addMembers T s val).map Prod.fst, ∃ a, s.additional = some a ∧ k ∈ keysOf (val a.go) := by
    intro k hk
    unfold addMembers at hk
    split at hk
    · rename_i a ha
      rw [mapMembers_keys] at hk
      exact ⟨a, ha, hk⟩
    · cases hk
  constructor
  · unfold membersFor
    rw [List.map_append, List.map_append, List.map_append, List.map_append]
    refine nodup_append_of (nodup_append_of (nodup_append_of (nodup_append_of ?_ ?_ ?_) ?_ ?_) ?_ ?_) hE ?_
    · rw [ck]; exact hb.constsNodup
    · -- fields
      unfold fieldMembers
      rw [List.map_map]
      have hnd : s.fields.Nodup := by
        have := hb.names
        unfold Struct.names at this
        simp only [List.append_assoc] at this
        exact nodup_of_map (List.nodup_append.1 this).1
      have hnd := List.Nodup.sublist (List.filter_sublist (p := fun f => !omitted f (val f.go))) hnd
      have hmem : ∀ f ∈ s.fields.filter (fun f => !omitted f (val f.go)), f ∈ s.fields := fun f hf => (List.mem_filter.1 hf).1
      generalize s.fields.filter (fun f => !omitted f (val f.go)) = l at hnd hmem
      induction l with
      | nil => exact List.nodup_nil
      | cons f l ih =>
        rw [List.nodup_cons] at hnd
        rw [List.map_cons, List.nodup_cons]
        refine ⟨?_, ih hnd.2 (fun g hg => hmem g (List.mem_cons_of_mem _ hg))⟩
        intro h
        obtain ⟨g, hg, e⟩ := List.mem_map.1 h
        have : g = f := field_eq hb (hmem g (List.mem_cons_of_mem _ hg)) (hmem f List.mem_cons_self) e
        exact hnd.1 (this ▸ hg)
    · intro k hk hk'
      obtain ⟨f, hf, rfl⟩ := fk k hk'
      rw [ck] at hk
      obtain ⟨c, hc, e⟩ := List.mem_map.1 hk
      have h1 := hb.consts c hc
      rw [e, hb.own f hf] at h1
      cases h1
    · unfold patMembers
      rw [List.map_flatMap]
      refine nodup_flatMap_of (patterns_nodup hb) ?_ ?_
      · intro q hq
        rw [mapMembers_keys]
        exact (hP q hq).1
      · intro q hq q' hq' hne k hk hk'
        rw [mapMembers_keys] at hk hk'
        have h1 := hb.patOther q hq q' hq' hne k (hpk q hq k hk)
        rw [hpk q' hq' k hk'] at h1
        cases h1
    · intro k hk hk'
      obtain ⟨q, hq, hm⟩ := pk k hk'
      rcases List.mem_append.1 hk with hk | hk
      · have h1 := hb.patKept q hq k hm
        obtain ⟨p, hp, rfl⟩ := List.mem_map.1 hk
        rw [const_not_kept hp] at h1
        cases h1
      · obtain ⟨f, hf, rfl⟩ := fk k hk
        have h1 := hb.patFields q hq _ hm
        rw [hb.own f hf] at h1
        cases h1
    · unfold addMembers
      split
      · rename_i a ha
        rw [mapMembers_keys]
        exact (hA a ha).1
      · exact List.nodup_nil
    · intro k hk hk'
      obtain ⟨a, ha, hka⟩ := ak k hk'
      obtain ⟨h1, h2, _⟩ := hb.additional (by rw [ha]; rfl)
      rcases List.mem_append.1 hk with hk | hk
      · rcases List.mem_append.1 hk with hk | hk
        · rw [ck, h2] at hk; cases hk
        · obtain ⟨f, hf, _⟩ := fk k hk
          rw [h1] at hf; cases hf
      · obtain ⟨q, hq, hm⟩ := pk k hk
        rw [hak a ha k hka q hq] at hm
        cases hm
    · intro k hk hk'
      obtain ⟨p, hp, rfl⟩ := List.mem_map.1 hk'
      obtain ⟨e1, e2, e3, e4⟩ := hEk p hp
      rcases List.mem_append.1 hk with hk | hk
      · rcases List.mem_append.1 hk with hk | hk
        · rcases List.mem_append.1 hk with hk | hk
          · rw [ck] at hk; exact e1 hk
          · obtain ⟨f, hf, e⟩ := fk _ hk
            rw [← e, hb.own f hf] at e2
            cases e2
        · obtain ⟨q, hq, hm⟩ := pk _ hk
          rw [e4 q hq] at hm
          cases hm
      · obtain ⟨a, ha, _⟩ := ak _ hk
        rw [e3] at ha; cases ha
  · rw [distinctMembers_iff]
    intro p hp
    unfold membersFor at hp
    simp only [List.mem_append] at hp
    rcases hp with (((hp | hp) | hp) | hp) | hp
    · unfold constMembers at hp
      obtain ⟨c, hc, rfl⟩ := List.mem_map.1 hp
      simp only
      cases c.2 <;> trivial
    · obtain ⟨f, hf, ho, rfl⟩ := mem_fieldMembers.1 hp
      exact hF f hf ho
    · obtain ⟨q, hq, hp⟩ := List.mem_flatMap.1 hp
      exact mapMembers_distinct (hP q hq) p hp
    · unfold addMembers at hp
      split at hp
      · rename_i a ha
        exact mapMembers_distinct (hA a ha) p hp
      · cases hp
    · exact hEd p hp

/-! ## All values -/

theorem mapDistinct_of {ty : Ty} {v : Val} (hg : MapGood T N ty v) (hd : Distinct (enc T (.map ty) v)) : MapDistinct T ty v := by
  rcases hg with rfl | ⟨es, rfl, h1, h2⟩
  · exact ⟨List.nodup_nil, fun _ hp => nomatch hp⟩
  · refine ⟨h1, fun p hp => ?_⟩
    have he : encode T (.map ty) (.map es) = some (.obj (es.map (fun p => (p.1, enc T ty p.2)))) := by
      rw [encode_map, mapAll_some_of (g := fun p => (p.1, enc T ty p.2))]
      · rfl
      · intro p hp
        rw [enc_some (h2 p hp).writes]
        rfl
    rw [enc_of he] at hd
    exact distinctMembers_iff.1 hd.2 _ (List.mem_map.2 ⟨p, hp, rfl⟩)

theorem field_distinct {s : Struct} (hb : Base s) {val : String → Val} {f : Field} (hf : f ∈ s.fields)
    (h : ¬ExplicitNull s f (val f.go) → Distinct (enc T f.ty (val f.go))) : Distinct (enc T f.ty (val f.go)) := by
  by_cases hx : ExplicitNull s f (val f.go)
  · obtain ⟨h1, h2⟩ := hx
    rw [nulls_field hb hf h1 rfl, h2]
    trivial
  · exact h hx

theorem patterns_x {s : Struct} (hs : s.patterns = [⟨.x, "MapOfAnything", .any⟩]) {P : PatField → Prop}
    (h : P ⟨.x, "MapOfAnything", .any⟩) : ∀ q ∈ s.patterns, P q := by
  intro q hq
  rw [hs, List.mem_singleton] at hq
  rw [hq]
  exact h

/-- What the security scheme of 3.1 is written as. -/
theorem security31_written (hn : GoMap.get? V31.table "SecurityScheme" = some (.struct V31.sSecurityScheme))
    (val : String → Val) (hf : ∀ f ∈ V31.sSecurityScheme.fields, Good V31.table N f.ty (val f.go))
    (hp : Good V31.table N (.map .any) (val "MapOfAnything"))
    (go : String) (t : Ty) (ho : ⟨go, .ptr t⟩ ∈ V31.sSecurityScheme.oneOf) (hv : val go ≠ .nil)
    (hg : Good V31.table N (.ptr t) (val go)) (hothers : ∀ h ∈ V31.sSecurityScheme.oneOf, h.go ≠ go → val h.go = .nil) :
    ∃ E, encode V31.table (.ptr t) (val go) = some (.obj E) ∧
      (∀ p ∈ E, fieldOf V31.sSecurityScheme.fields p.1 = none ∧ Pat.x.matches p.1 = false) ∧
      encode V31.table (.named "SecurityScheme") (structOf V31.sSecurityScheme val) =
        some (.obj (membersFor V31.table V31.sSecurityScheme val E)) := by
  have hb : Base V31.sSecurityScheme := base_of_check (by decide +kernel)
  have hF : ∀ f ∈ V31.sSecurityScheme.fields, FieldRt V31.table N V31.sSecurityScheme val f :=
    fun f hff => .inr (hf f hff).rt
  have hP : ∀ q ∈ V31.sSecurityScheme.patterns, MapGood V31.table N q.ty (val q.go) := patterns_x rfl hp.deep
  have ho' := ho
  rw [secAlts_oneOf] at ho'
  obtain ⟨a, ha, e⟩ := List.mem_map.1 ho'
  simp only [Hidden.mk.injEq, Ty.ptr.injEq] at e
  obtain ⟨rfl, rfl⟩ := e
  obtain ⟨c1, c2, c3, c4, c5, c6, c7, c8, c9, c10, c11, c12, c13, c14, c15⟩ := secCheck_iff ha
  obtain ⟨val', hval, hb', hv'⟩ := ((deep_ptr hg.deep hv).2 _ c1).1 ⟨c3, c4⟩
  have hE : encode V31.table (.named a.2.1) (val a.1) = some (.obj (membersFor V31.table a.2.2 val' [])) := by
    rw [hval]; exact encode_plainVal c1 hb' hv'
  have hprof : Profile a.2.2 (membersFor V31.table a.2.2 val' []) :=
    profile_members hb'.toBase hv'.patKeys (by intro p hp; cases hp) (by intro p hp; cases hp)
  generalize membersFor V31.table a.2.2 val' [] = E at hE hprof
  have hEk : ∀ p ∈ E, p.1 ∈ a.2.2.consts.map Prod.fst ++ a.2.2.fields.map Field.key := by
    intro p hp
    have := hprof.keys p hp
    unfold mayKey at this
    rw [c6, c7] at this
    simp only [Bool.or_eq_true, List.any_eq_true, beq_iff_eq, List.not_mem_nil, false_and, exists_false, or_false,
      Option.isSome_none, Bool.false_eq_true] at this
    rw [List.mem_append, List.mem_map, List.mem_map]
    exact this
  have hnd : (V31.sSecurityScheme.oneOf.map Hidden.go).Nodup := by decide
  have hgo : a.1 ∈ V31.sSecurityScheme.oneOf.map Hidden.go := List.mem_map.2 ⟨_, ho, rfl⟩
  refine ⟨E, by rw [encode_ptr _ hv, hE], fun p hp => ⟨(c13 p.1 (hEk p hp)).1, (c13 p.1 (hEk p hp)).2.1⟩, ?_⟩
  rw [encode_parts hn hb.names (X := V31.sSecurityScheme.oneOf.map Hidden.go)
    (J := fun x => if x = a.1 then .obj E else .null) rfl hb.hidden
    (fun f hff => field_encodes hb hff (hF f hff)) (fun q hq => (hP q hq).ok) (by intro a ha; cases ha),
    flatMap_one hnd hgo]
  · rfl
  · intro x hx
    obtain ⟨h, hh, rfl⟩ := List.mem_map.1 hx
    refine ⟨h.ty, hb.hidden h ?_, ?_, ?_, ?_⟩
    · unfold Struct.hidden
      simp only [List.mem_append]
      exact .inl (.inl (.inr hh))
    · unfold Struct.names
      simp only [List.mem_append]
      exact .inl (.inl (.inr hx))
    · by_cases e : h.go = a.1
      · have : h = ⟨a.1, .ptr (.named a.2.1)⟩ := hidden_eq hnd hh ho e
        subst this
        simp only [if_true]
        rw [encode_ptr _ hv, hE]
      · rw [if_neg e, hothers h hh e]
        rw [secAlts_oneOf] at hh
        obtain ⟨b, _, rfl⟩ := List.mem_map.1 hh
        rfl
    · split
      · exact .inr ⟨E, rfl⟩
      · exact .inl rfl

/-- A struct whose further parts are nil is written like one without. -/
theorem encode_nil_parts {n : String} {s : Struct} (hn : GoMap.get? T n = some (.struct s)) (hb : Base s)
    {val : String → Val} {X : List String} (hparts : s.parts = canonParts s ++ X.map .hidden) (hadd : s.additional = none)
    (hF : ∀ f ∈ s.fields, FieldRt T N s val f) (hP : ∀ q ∈ s.patterns, MapGood T N q.ty (val q.go))
    (hX : ∀ go ∈ X, ∃ t, hiddenTy s go = some (.ptr t) ∧ go ∈ s.names ∧ val go = .nil) :
    encode T (.named n) (structOf s val) = some (.obj (membersFor T s val [])) := by
  rw [encode_parts hn hb.names (X := X) (J := fun _ => .null) hparts hb.hidden
    (fun f hff => field_encodes hb hff (hF f hff)) (fun q hq => (hP q hq).ok) (by rw [hadd]; intro a ha; cases ha)]
  · unfold membersFor
    congr 3
    rw [List.flatMap_eq_nil_iff]
    intro x _; rfl
  · intro go hgo
    obtain ⟨t, h1, h2, h3⟩ := hX go hgo
    exact ⟨.ptr t, h1, h2, by rw [h3]; rfl, .inl rfl⟩

theorem derived_nil {s : Struct} {val : String → Val} (h : Everywhere noDerived (structOf s val)) {go : String}
    (hgo : go ∈ s.names) (hd : go ∈ derived) : val go = .nil := by
  have := Spec.Everywhere.self h go hd
  rwa [fieldIn_of val hgo] at this

theorem writable_distinct {Ok : String → String → Val → Prop} (F : Facts T N Ok)
    (hS : GoMap.get? T "SecurityScheme" = some (.struct V31.sSecurityScheme) → T = V31.table) {ty : Ty} {v : Val}
    (h : Writable T N Ok ty v) : Everywhere noDerived v → Distinct (enc T ty v) := by
  induction h with
  | any h =>
    intro _
    rw [enc_of (encode_any T _)]
    exact decodeAny_distinct h
  | bool b => intro _; exact trivial
  | str s => intro _; exact trivial
  | int h => intro _; exact trivial
  | float h => intro _; exact trivial
  | nilPtr t => intro _; exact trivial
  | @ptr t v ht h1 h2 h ih =>
    intro hE
    unfold enc
    rw [encode_ptr T h1]
    exact ih hE
  | nilSlice t => intro _; exact trivial
  | @slice t vs h ih =>
    intro hE
    have he : encode T (.slice t) (.list vs) = some (.arr (vs.map (enc T t))) := by
      rw [encode_slice, mapAll_some_of (g := enc T t)]
      · rfl
      · intro x hx; exact enc_some (writable_good F (h x hx)).rt.writes
    rw [enc_of he]
    refine distinctList_iff.2 fun x hx => ?_
    obtain ⟨y, hy, rfl⟩ := List.mem_map.1 hx
    exact ih y hy (Spec.Everywhere.list hE hy)
  | nilMap t => intro _; exact trivial
  | @map t ms hk h ih =>
    intro hE
    have he : encode T (.map t) (.map ms) = some (.obj (ms.map (fun p => (p.1, enc T t p.2)))) := by
      rw [encode_map, mapAll_some_of (g := fun p => (p.1, enc T t p.2))]
      · rfl
      · intro p hp
        rw [enc_some (writable_good F (h p.1 p.2 hp)).rt.writes]
        rfl
    rw [enc_of he]
    refine ⟨by simpa [Function.comp_def] using hk, distinctMembers_iff.2 fun p hp => ?_⟩
    obtain ⟨x, hx, rfl⟩ := List.mem_map.1 hp
    exact ih x.1 x.2 hx (Spec.Everywhere.map hE hx)
  | @enum n values hn s h =>
    intro _
    have hc : values.contains s = true := List.contains_iff_mem.2 h
    rw [enc_of (j := .str s) (by rw [encode_enum hn, if_pos hc])]
    trivial
  | @plain n s hn hs hb val hf hp hpk ha hak hone hlow hnot ihf ihp iha =>
    intro hE
    have P := F.plain n s hn hs hb
    have V : PlainVal T N s val := by
      refine ⟨?_, ?_, hpk, ?_, hak, hone, hlow⟩
      · intro f hff
        by_cases hx : ExplicitNull s f (val f.go)
        · exact .inl hx
        · exact .inr (writable_good F (hf f hff hx)).rt
      · intro q hq; exact (writable_good F (hp q hq)).deep
      · intro a haa; exact (writable_good F (ha a haa)).deep
    rw [enc_of (encode_plainVal hn P V)]
    refine members_distinct P.toBase ?_ ?_ hpk ?_ hak List.nodup_nil (by intro p hp; cases hp) (by intro p hp; cases hp)
    · intro f hff _
      exact field_distinct P.toBase hff (fun hx => ihf f hff hx (Spec.Everywhere.field hE (field_name hff)))
    · intro q hq
      exact mapDistinct_of (V.patterns q hq) (ihp q hq (Spec.Everywhere.field hE (pattern_name hq)))
    · intro a haa
      exact mapDistinct_of (V.add a haa) (iha a haa (Spec.Everywhere.field hE (additional_name haa)))
  | @union n s hn hs go t v ho hv h hok ih =>
    intro hE
    obtain ⟨h1, _, _, _⟩ := F.union n s hn hs (List.ne_nil_of_mem ho)
    obtain ⟨⟨j, w, he, hd, hsame⟩, hdeep, hnull⟩ := writable_good F h
    have hj : j ≠ .null := by
      rintro rfl
      rcases hnull he with e | e
      · exact hv e
      · rcases hdeep with e' | e'
        · exact hv e'
        · exact e'.2.1 e
    rw [enc_of (encode_union hn hs h1 ho he hj), ← enc_of he]
    refine ih (Spec.Everywhere.struct hE (k := go) (List.mem_map.2 ⟨_, ho, ?_⟩))
    simp
  | http hn val hf hp hpk hs ihf ihp =>
    intro hE
    have hb : Base V30.sHTTPSecurityScheme := base_of_check (by decide +kernel)
    have hP : ∀ q ∈ V30.sHTTPSecurityScheme.patterns, MapGood T N q.ty (val q.go) := patterns_x rfl (writable_good F hp).deep
    rw [enc_of (encode_nil_parts hn hb (X := ["Bearer", "NonBearer"]) rfl rfl
      (fun f hff => .inr (writable_good F (hf f hff)).rt) hP ?_)]
    · refine members_distinct hb ?_ ?_ (patterns_x rfl fun k hk => x_matches.2 (hpk k hk)) (by intro a ha; cases ha)
        (by intro a ha; cases ha) List.nodup_nil (by intro p hp; cases hp) (by intro p hp; cases hp)
      · intro f hff _
        exact ihf f hff (Spec.Everywhere.field hE (field_name hff))
      · exact patterns_x rfl (mapDistinct_of (writable_good F hp).deep (ihp (Spec.Everywhere.field hE (by decide))))
    · intro go hgo
      simp only [List.mem_cons, List.not_mem_nil, or_false] at hgo
      rcases hgo with rfl | rfl
      · exact ⟨_, rfl, by decide, derived_nil hE (by decide) (by decide)⟩
      · exact ⟨_, rfl, by decide, derived_nil hE (by decide) (by decide)⟩
  | @security hn val hf hp hpk go t ho hv h hothers ihf ihp ih =>
    intro hE
    have := hS hn
    subst this
    have hb : Base V31.sSecurityScheme := base_of_check (by decide +kernel)
    obtain ⟨E, h1, h2, h3⟩ := security31_written hn val (fun f hff => writable_good F (hf f hff)) (writable_good F hp) go t ho hv
      (writable_good F h) hothers
    have hD := ih (Spec.Everywhere.field hE (oneOf_name ho))
    rw [enc_of h1] at hD
    rw [enc_of h3]
    refine members_distinct hb ?_ ?_ (patterns_x rfl fun k hk => x_matches.2 (hpk k hk)) (by intro a ha; cases ha)
      (by intro a ha; cases ha) hD.1 (distinctMembers_iff.1 hD.2) ?_
    · intro f hff _
      exact ihf f hff (Spec.Everywhere.field hE (field_name hff))
    · exact patterns_x rfl (mapDistinct_of (writable_good F hp).deep (ihp (Spec.Everywhere.field hE (by decide))))
    · intro p hp
      exact ⟨(fun h => nomatch h), (h2 p hp).1, rfl,
        patterns_x (P := fun q => q.pat.matches p.1 = false) rfl (h2 p hp).2⟩
  | parameter hn val hf hp hpk hx hin hreq hst hl ihf ihp =>
    intro hE
    have hb : Base V30.sParameter := base_of_check (by decide +kernel)
    have hP : ∀ q ∈ V30.sParameter.patterns, MapGood T N q.ty (val q.go) := patterns_x rfl (writable_good F hp).deep
    rw [enc_of (encode_nil_parts hn hb (X := ["SchemaXORContent", "Location"]) rfl rfl ?_ hP ?_)]
    · refine members_distinct hb ?_ ?_ (patterns_x rfl fun k hk => x_matches.2 (hpk k hk)) (by intro a ha; cases ha)
        (by intro a ha; cases ha) List.nodup_nil (by intro p hp; cases hp) (by intro p hp; cases hp)
      · intro f hff _
        exact field_distinct hb hff (fun hx => ihf f hff hx (Spec.Everywhere.field hE (field_name hff)))
      · exact patterns_x rfl (mapDistinct_of (writable_good F hp).deep (ihp (Spec.Everywhere.field hE (by decide))))
    · intro f hff
      by_cases hx : ExplicitNull V30.sParameter f (val f.go)
      · exact .inl hx
      · exact .inr (writable_good F (hf f hff hx)).rt
    · intro go hgo
      simp only [List.mem_cons, List.not_mem_nil, or_false] at hgo
      rcases hgo with rfl | rfl
      · exact ⟨_, rfl, by decide, derived_nil hE (by decide) (by decide)⟩
      · exact ⟨_, rfl, by decide, derived_nil hE (by decide) (by decide)⟩

end Verif
