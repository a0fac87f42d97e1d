import Verif.Lemmas.RoundTripMain
import Verif.Spec.Load

/-! What is read back is written as before: structs. -/

namespace Verif
open Codec Spec

variable {T : Table} {N : Nums}

/-- What is read back is written as before. -/
def Again (T : Table) (N : Nums) (ty : Ty) (v : Val) : Prop := encode T ty (rt T N ty v) = encode T ty v

theorem again_of {ty : Ty} {v : Val} {j : Any} {w : Val} (h1 : encode T ty v = some j) (h2 : decode T N ty j = some w)
    (h3 : encode T ty w = some j) : Again T N ty v := by
  unfold Again rt
  rw [h1, Option.bind_some, h2]
  exact h3

theorem Again.writes {ty : Ty} {v : Val} (h : Again T N ty v) (hr : Rt T N ty v) :
    encode T ty (rt T N ty v) = some (enc T ty v) := h.trans (enc_some hr.writes)

theorem structOf_fieldIn {s : Struct} {L : List (String × Val)} (h : L.map Prod.fst = s.names) (hnd : s.names.Nodup) :
    Val.struct L = structOf s (fieldIn L) := by
  unfold structOf
  rw [← h, List.map_map]
  congr 1
  rw [← h] at hnd
  suffices ∀ p ∈ L, p = ((fun go => (go, fieldIn L go)) ∘ Prod.fst) p by
    have := List.map_congr_left this
    rwa [List.map_id'] at this
  intro p hp
  simp only [Function.comp, fieldIn]
  rw [GoMap.get?_of_mem (k := p.1) (v := p.2) hnd hp]
  rfl

theorem fieldIn_mem {L : List (String × Val)} (hnd : (L.map Prod.fst).Nodup) {k : String} {v : Val} (h : (k, v) ∈ L) :
    fieldIn L k = v := by
  unfold fieldIn
  rw [GoMap.get?_of_mem hnd h]
  rfl

theorem fieldIn_of {s : Struct} (val : String → Val) {go : String} (hgo : go ∈ s.names) :
    fieldIn (s.names.map (fun go => (go, val go))) go = val go := by
  unfold fieldIn
  have : GoMap.get? (s.names.map (fun go => (go, val go))) go = some (val go) := by
    generalize s.names = l at hgo
    induction l with
    | nil => cases hgo
    | cons x l ih =>
      simp only [List.map_cons, GoMap.get?]
      by_cases e : x = go
      · subst e; simp
      · rcases List.mem_cons.1 hgo with h | h
        · exact absurd h.symm e
        · rw [if_neg (by simpa using e)]
          exact ih h
  rw [this]; rfl

/-! ## Fields -/

/-- A field is written as before. -/
structure FieldAgain (T : Table) (f : Field) (v w : Val) : Prop where
  writes : ∃ j, encode T f.ty w = some j
  omits : omitted f w = omitted f v
  same : omitted f v = false → encode T f.ty w = encode T f.ty v

theorem omitted_ptr {f : Field} {t : Ty} (h : f.ty = .ptr t) (ho : f.omitempty = true) (v : Val) :
    omitted f v = false ↔ v ≠ .nil := by
  unfold omitted
  rw [h, ho]
  cases v <;> simp

theorem omitted_of_encode {f : Field} (hty : (∃ t, f.ty = .ptr t) ∨ (∃ t, f.ty = .slice t) ∨ ∃ t, f.ty = .map t)
    (ho : f.omitempty = true) {v w : Val} {j : Any} (hv : encode T f.ty v = some j) (hw : encode T f.ty w = some j)
    (hnull : j = .null → v = .nil) (h : omitted f v = false) : omitted f w = false := by
  rcases hty with ⟨t, e⟩ | ⟨t, e⟩ | ⟨t, e⟩
  · rw [omitted_ptr e ho] at h ⊢
    rintro rfl
    rw [e] at hw
    have : some Any.null = some j := hw
    exact h (hnull (Option.some.inj this).symm)
  · unfold omitted at h ⊢
    rw [e, ho, Bool.true_and] at h ⊢
    simp only at h ⊢
    rw [e] at hv hw
    cases w with
    | nil =>
      have : some Any.null = some j := hw
      rw [hnull (Option.some.inj this).symm] at h
      cases h
    | list ws =>
      cases ws with
      | cons x ws => rfl
      | nil =>
        rw [encode_slice] at hw
        have hj : some (Any.arr []) = some j := hw
        cases v with
        | list vs =>
          cases vs with
          | nil => exact h
          | cons x vs =>
            rw [encode_slice] at hv
            rw [← Option.some.inj hj] at hv
            rw [Option.map_eq_some_iff] at hv
            obtain ⟨ys, h1, h2⟩ := hv
            cases h2
            simp only [mapAll] at h1
            split at h1 <;> cases h1
        | nil => exact h
        | _ => cases hv
    | _ => cases hw
  · unfold omitted at h ⊢
    rw [e, ho, Bool.true_and] at h ⊢
    simp only at h ⊢
    rw [e] at hv hw
    cases w with
    | nil =>
      have : some Any.null = some j := hw
      rw [hnull (Option.some.inj this).symm] at h
      cases h
    | map ws =>
      cases ws with
      | cons x ws => rfl
      | nil =>
        rw [encode_map] at hw
        have hj : some (Any.obj []) = some j := hw
        cases v with
        | map vs =>
          cases vs with
          | nil => exact h
          | cons x vs =>
            rw [encode_map] at hv
            rw [← Option.some.inj hj] at hv
            rw [Option.map_eq_some_iff] at hv
            obtain ⟨ys, h1, h2⟩ := hv
            cases h2
            simp only [mapAll] at h1
            split at h1 <;> cases h1
        | nil => exact h
        | _ => cases hv
    | _ => cases hw

/-- What is known about a field that is written. -/
def FieldStable (T : Table) (N : Nums) (s : Struct) (val : String → Val) (f : Field) : Prop :=
  ExplicitNull s f (val f.go) ∨ (Good T N f.ty (val f.go) ∧ Again T N f.ty (val f.go))

theorem omitted_zero {s : Struct} (hb : Base s) {f : Field} (hf : f ∈ s.fields) {v : Val} (ho : omitted f v = true) :
    zero T f.ty = .nil ∧ encode T f.ty .nil = some .null ∧ omitted f .nil = true := by
  unfold omitted at ho
  rw [Bool.and_eq_true] at ho
  have h := hb.omits f hf ho.1
  unfold omitted
  rw [ho.1]
  rcases h with ⟨t, e⟩ | ⟨t, e⟩ | ⟨t, e⟩ <;> rw [e] <;> exact ⟨rfl, rfl, rfl⟩

theorem nil_of_null {s : Struct} (hb : Base s) {f : Field} (hf : f ∈ s.fields) (he : f.omitempty = true) {v : Val}
    (hg : Good T N f.ty v) (hv : encode T f.ty v = some .null) : v = .nil := by
  rcases hg.null hv with e | e
  · exact e
  · have hd := hg.deep
    rcases hb.omits f hf he with ⟨t, ht⟩ | ⟨t, ht⟩ | ⟨t, ht⟩
    · rw [ht] at hd
      rcases hd with h | ⟨_, h, _⟩
      · exact h
      · exact absurd e h
    · rw [ht, e] at hv; cases hv
    · rw [ht, e] at hv; cases hv

theorem field_again (hT : Ranked T) {s : Struct} {val : String → Val} {f : Field} (hb : Base s) (hf : f ∈ s.fields)
    (h : FieldStable T N s val f) {M : List (String × Any)}
    (hk : hasKey (M.map (memberOf T N)) f.key = !omitted f (val f.go)) :
    FieldAgain T f (val f.go) (fieldBack T N s val M f) := by
  rcases h with ⟨h1, h2⟩ | ⟨hg, ha⟩
  · -- an explicit null
    have e := nulls_field hb hf h1 rfl
    have ety : f.ty = .ptr .any := by rw [e]
    have ho : omitted f (val f.go) = false := by rw [h2]; unfold omitted; rw [ety]; simp
    have er : fieldRead T N val f = .nil := by
      unfold fieldRead
      rw [ho]
      have a : encode T (.ptr .any) (.any .null) = some .null := rfl
      have b : decode T N (.ptr .any) .null = some .nil := decode_ptr hT rfl _
      rw [ety, h2]
      simp [rt, a, b]
    have hany : s.nulls.any (fun n => n.1 == f.go && hasKey (M.map (memberOf T N)) n.2) = true := by
      rw [List.any_eq_true]
      exact ⟨_, h1, by simp [hk, ho]⟩
    have : fieldBack T N s val M f = .any .null := by
      unfold fieldBack
      simp only [rememberNull, er]
      rw [if_pos hany]
    rw [this, h2]
    exact ⟨⟨.null, by rw [ety]; rfl⟩, rfl, fun _ => rfl⟩
  · cases ho : omitted f (val f.go) with
    | true =>
      obtain ⟨hz, he, hn⟩ := omitted_zero (T := T) hb hf ho
      have er : fieldRead T N val f = .nil := by
        unfold fieldRead
        rw [if_pos ho, hz]
      have : fieldBack T N s val M f = .nil := by
        unfold fieldBack
        simp only [rememberNull, er]
        rw [if_neg]
        intro hn
        rw [List.any_eq_true] at hn
        obtain ⟨n, hn, e⟩ := hn
        simp only [Bool.and_eq_true, beq_iff_eq] at e
        have ef := nulls_field hb hf hn e.1
        have ek : f.key = n.2 := by rw [ef]
        rw [← ek, hk, ho] at e
        cases e.2
      rw [this]
      exact ⟨⟨_, he⟩, by rw [hn, ho], fun h => by rw [ho] at h; cases h⟩
    | false =>
      have hw := ha.writes hg.rt
      have hv := enc_some hg.rt.writes
      have hom : omitted f (rt T N f.ty (val f.go)) = false := by
        cases he : f.omitempty with
        | false => unfold omitted; rw [he]; rfl
        | true =>
          exact omitted_of_encode (hb.omits f hf he) he hv hw (fun hj => nil_of_null hb hf he hg (by rw [← hj]; exact hv)) ho
      have er : fieldRead T N val f = rt T N f.ty (val f.go) := by
        unfold fieldRead
        rw [ho]; rfl
      have : fieldBack T N s val M f = rt T N f.ty (val f.go) := by
        unfold fieldBack
        rw [er]
        unfold rememberNull
        split
        · rename_i hnil
          simp only at hnil
          split
          · rename_i hn
            exfalso
            rw [List.any_eq_true] at hn
            obtain ⟨n, hn, en⟩ := hn
            simp only [Bool.and_eq_true, beq_iff_eq] at en
            have ef := nulls_field hb hf hn en.1
            rw [hnil, omitted_ptr (t := .any) (by rw [ef]) (by rw [ef])] at hom
            exact hom rfl
          · rfl
        · rfl
      rw [this]
      exact ⟨⟨_, hw⟩, by rw [hom, ho], fun _ => ha⟩

/-! ## Maps -/

/-- The entries of a map are written as before. -/
def MapAgain (T : Table) (N : Nums) (ty : Ty) (v : Val) : Prop := ∀ p ∈ entries v, Again T N ty p.2

theorem entries_madeMap (es : List (String × Val)) : entries (madeMap es) = es := by
  cases es <;> rfl

theorem mapVal_ok {ty : Ty} {v : Val} (hg : MapGood T N ty v) (h : MapAgain T N ty v) : MapOk T ty (mapVal T N ty v) := by
  unfold mapVal
  cases he : entries v with
  | nil => exact .inl rfl
  | cons e es =>
    refine .inr ⟨_, rfl, ?_⟩
    intro p hp
    rw [← he] at hp
    obtain ⟨x, hx, rfl⟩ := List.mem_map.1 hp
    exact ⟨_, (h x hx).writes (hg.entries x hx)⟩

theorem mapMembers_again {ty : Ty} {v : Val} (h : MapAgain T N ty v) :
    mapMembers T ty (mapVal T N ty v) = mapMembers T ty v := by
  unfold mapMembers mapVal
  rw [entries_madeMap, List.map_map]
  apply List.map_congr_left
  intro p hp
  have := h p hp
  unfold Again at this
  simp only [Function.comp, enc, this]

/-! ## Structs -/

theorem fieldMembers_again {s : Struct} {val val' : String → Val}
    (h : ∀ f ∈ s.fields, FieldAgain T f (val f.go) (val' f.go)) : fieldMembers T s val' = fieldMembers T s val := by
  unfold fieldMembers
  generalize s.fields = l at *
  induction l with
  | nil => rfl
  | cons f l ih =>
    have ih := ih (fun g hg => h g (List.mem_cons_of_mem _ hg))
    have hf := h f List.mem_cons_self
    simp only [List.filter_cons, hf.omits]
    cases ho : omitted f (val f.go) with
    | true => simpa using ih
    | false =>
      have he : enc T f.ty (val' f.go) = enc T f.ty (val f.go) := by unfold enc; rw [hf.same ho]
      simp only [Bool.not_false, if_true, List.map_cons, he]
      rw [ih]

/-- A struct is written as before if its parts are. -/
theorem encode_again {n : String} {s : Struct} (hn : GoMap.get? T n = some (.struct s)) (hb : Base s)
    {X : List String} (hparts : s.parts = canonParts s ++ X.map .hidden) {val val' : String → Val}
    (hf : ∀ f ∈ s.fields, FieldAgain T f (val f.go) (val' f.go))
    (hp : ∀ q ∈ s.patterns, val' q.go = mapVal T N q.ty (val q.go) ∧ MapGood T N q.ty (val q.go) ∧
      MapAgain T N q.ty (val q.go))
    (ha : ∀ a, s.additional = some a → val' a.go = mapVal T N a.ty (val a.go) ∧ MapGood T N a.ty (val a.go) ∧
      MapAgain T N a.ty (val a.go)) {J : String → Any}
    (hX : ∀ go ∈ X, ∃ ty, hiddenTy s go = some ty ∧ go ∈ s.names ∧ encode T ty (val' go) = some (J go) ∧ IsPart (J go)) :
    encode T (.named n) (structOf s val') =
      some (.obj (membersFor T s val (X.flatMap (fun go => objMembers (J go))))) := by
  rw [encode_parts hn hb.names hparts hb.hidden (fun f hff => (hf f hff).writes) ?_ ?_ hX, fieldMembers_again hf]
  · have e1 : patMembers T s val' = patMembers T s val := by
      unfold patMembers
      apply flatMap_congr'
      intro q hq
      obtain ⟨h1, _, h3⟩ := hp q hq
      rw [h1, mapMembers_again h3]
    have e2 : addMembers T s val' = addMembers T s val := by
      unfold addMembers
      cases hadd : s.additional with
      | none => rfl
      | some a =>
        obtain ⟨h1, _, h3⟩ := ha a hadd
        simp only
        rw [h1, mapMembers_again h3]
    rw [e1, e2]
    rfl
  · intro q hq
    obtain ⟨h1, h2, h3⟩ := hp q hq
    rw [h1]
    exact mapVal_ok h2 h3
  · intro a hadd
    obtain ⟨h1, h2, h3⟩ := ha a hadd
    rw [h1]
    exact mapVal_ok h2 h3

/-- A plain struct is written as before if its fields are. -/
theorem plain_again (hT : Ranked T) {n : String} {s : Struct} (hn : GoMap.get? T n = some (.struct s)) (hb : Plain s)
    (hs : s.embeds = [] ∧ s.oneOf = []) {val : String → Val} (hv : PlainVal T N s val)
    (hnots : ∀ t ∈ s.nots, decode T N t (.obj (membersFor T s val [])) = none)
    (hf : ∀ f ∈ s.fields, FieldStable T N s val f) (hp : ∀ q ∈ s.patterns, MapAgain T N q.ty (val q.go))
    (ha : ∀ a, s.additional = some a → MapAgain T N a.ty (val a.go)) : Again T N (.named n) (structOf s val) := by
  obtain ⟨hd, _⟩ := plain_back hT hn hb hs hv hnots
  refine again_of (encode_plainVal hn hb hv) hd ?_
  have hkey := field_hasKey (T := T) (N := N) (M := membersFor T s val [])
    (fun f hf => members_key hb.toBase hv.patKeys (by intro p hp; cases hp) hf)
  generalize hL : s.fields.map (fun f => (f.go, fieldBack T N s val (membersFor T s val []) f)) ++ [] ++ [] ++
    (s.patterns.map (fun q => (q.go, mapVal T N q.ty (val q.go))) ++ addVals T N s val) = L
  have hLn : L.map Prod.fst = s.names := by
    rw [← hL]
    unfold Struct.names addVals
    rw [hs.1, hs.2]
    simp only [List.map_append, List.map_map, List.append_nil, List.map_nil, List.append_assoc]
    congr 2
    cases s.additional <;> rfl
  have hnd : (L.map Prod.fst).Nodup := by rw [hLn]; exact hb.names
  rw [structOf_fieldIn hLn hb.names]
  refine (encode_again (N := N) hn hb.toBase (X := []) (J := fun _ => .null) (by rw [hb.parts]; simp) (val := val) ?_ ?_ ?_
    (by intro go hgo; cases hgo)).trans rfl
  · intro f hff
    rw [fieldIn_mem hnd (k := f.go) (v := fieldBack T N s val (membersFor T s val []) f)]
    · exact field_again hT hb.toBase hff (hf f hff) (hkey f hff)
    · rw [← hL]
      simp only [List.mem_append, List.mem_map]
      exact .inl (.inl (.inl ⟨f, hff, rfl⟩))
  · intro q hq
    refine ⟨fieldIn_mem hnd ?_, hv.patterns q hq, hp q hq⟩
    rw [← hL]
    simp only [List.mem_append, List.mem_map]
    exact .inr (.inl ⟨q, hq, rfl⟩)
  · intro a haa
    refine ⟨fieldIn_mem hnd ?_, hv.add a haa, ha a haa⟩
    rw [← hL]
    simp only [List.mem_append]
    right; right
    simp [addVals, haa]

/-! ## Structs of what is read back -/

theorem everywhere_struct {Q : List (String × Val) → Prop} {fs : List (String × Val)} (h : Q fs)
    (hs : ∀ p ∈ fs, Everywhere Q p.2) : Everywhere Q (.struct fs) := by
  intro gs hp
  cases hp with
  | self => exact h
  | struct hx hp => exact hs _ hx gs hp

theorem everywhere_list {Q : List (String × Val) → Prop} {vs : List Val} (hs : ∀ v ∈ vs, Everywhere Q v) :
    Everywhere Q (.list vs) := by
  intro gs hp
  cases hp with
  | list hx hp => exact hs _ hx gs hp

theorem everywhere_map {Q : List (String × Val) → Prop} {fs : List (String × Val)} (hs : ∀ p ∈ fs, Everywhere Q p.2) :
    Everywhere Q (.map fs) := by
  intro gs hp
  cases hp with
  | map hx hp => exact hs _ hx gs hp

theorem everywhere_nil {Q : List (String × Val) → Prop} : Everywhere Q .nil := by intro gs hp; cases hp
theorem everywhere_any {Q : List (String × Val) → Prop} {a : Any} : Everywhere Q (.any a) := by intro gs hp; cases hp
theorem everywhere_str {Q : List (String × Val) → Prop} {a : String} : Everywhere Q (.str a) := by intro gs hp; cases hp

theorem rememberNull_everywhere {Q : List (String × Val) → Prop} {s : Struct} {ms : List Member} {go : String} {v : Val}
    (h : Everywhere Q v) : Everywhere Q (rememberNull s ms (go, v)).2 := by
  unfold rememberNull
  split
  · split
    · exact everywhere_any
    · exact h
  · exact h

theorem fieldRead_everywhere (hT : Ranked T) {Q : List (String × Val) → Prop} {s : Struct} (hb : Base s) {f : Field}
    (hf : f ∈ s.fields) {val : String → Val}
    (h : ¬ExplicitNull s f (val f.go) → Everywhere Q (rt T N f.ty (val f.go))) : Everywhere Q (fieldRead T N val f) := by
  unfold fieldRead
  cases ho : omitted f (val f.go) with
  | true =>
    simp only [if_true]
    rw [(omitted_zero (T := T) hb hf ho).1]
    exact everywhere_nil
  | false =>
    simp only [Bool.false_eq_true, if_false]
    by_cases hx : ExplicitNull s f (val f.go)
    · have e := nulls_field hb hf hx.1 rfl
      have ety : f.ty = .ptr .any := by rw [e]
      have a : encode T (.ptr .any) (.any .null) = some .null := rfl
      have b : decode T N (.ptr .any) .null = some .nil := decode_ptr hT rfl _
      rw [ety, hx.2]
      simp only [rt, a, b, Option.bind_some, Option.getD_some]
      exact everywhere_nil
    · exact h hx

theorem fieldBack_everywhere (hT : Ranked T) {Q : List (String × Val) → Prop} {s : Struct} (hb : Base s) {f : Field}
    (hf : f ∈ s.fields) {val : String → Val} {M : List (String × Any)}
    (h : ¬ExplicitNull s f (val f.go) → Everywhere Q (rt T N f.ty (val f.go))) : Everywhere Q (fieldBack T N s val M f) :=
  rememberNull_everywhere (fieldRead_everywhere hT hb hf h)

theorem mapVal_everywhere {Q : List (String × Val) → Prop} {ty : Ty} {v : Val}
    (h : ∀ p ∈ entries v, Everywhere Q (rt T N ty p.2)) : Everywhere Q (mapVal T N ty v) := by
  have key : ∀ es : List (String × Val), (∀ p ∈ es, Everywhere Q p.2) → Everywhere Q (madeMap es) := by
    intro es hes
    unfold madeMap
    split
    · exact everywhere_nil
    · exact everywhere_map hes
  apply key
  intro p hp
  obtain ⟨q, hq, rfl⟩ := List.mem_map.1 hp
  exact h q hq

theorem addVals_everywhere {Q : List (String × Val) → Prop} {s : Struct} {val : String → Val}
    (h : ∀ a, s.additional = some a → ∀ p ∈ entries (val a.go), Everywhere Q (rt T N a.ty p.2)) :
    ∀ p ∈ addVals T N s val, Everywhere Q p.2 := by
  intro p hp
  unfold addVals at hp
  split at hp
  · rename_i a ha
    cases List.mem_singleton.1 hp
    exact mapVal_everywhere (h a ha)
  · cases hp

end Verif
