import Verif.Lemmas.RoundTripPlain
import Verif.Props.CodecLimits

/-! Alternatives that are written and read back. -/

namespace Verif
open Codec Spec

variable {T : Table} {N : Nums}

/-! ## Writing and reading one alternative -/

/-- A part that `marshalUnion` does not skip. -/
def nonEmpty : Any → Bool
  | .null => false
  | .obj [] => false
  | _ => true

theorem unionJ_eq (js : List Any) : unionJ js = match js.filter nonEmpty with
    | [] => some (.obj [])
    | [j] => some j
    | js => (mapAll (fun j => match j with
      | .obj ms => some ms
      | _ => none) js).map (fun l => .obj l.flatten) := rfl

theorem unionJ_one {l1 l2 : List Any} {j : Any} (h1 : ∀ x ∈ l1, x = .null) (h2 : ∀ x ∈ l2, x = .null)
    (hj : j ≠ .null) : unionJ (l1 ++ j :: l2) = some j := by
  rw [unionJ_eq, List.filter_append, List.filter_cons, filter_none (l := l1), filter_none (l := l2)]
  · cases j with
    | null => exact absurd rfl hj
    | obj ms => cases ms <;> rfl
    | _ => rfl
  · intro x hx; rw [h2 x hx]; rfl
  · intro x hx; rw [h1 x hx]; rfl

/-- The types of alternatives. -/
def unionCheckTy (s : Struct) : Bool :=
  decide (s.oneOf.map Hidden.go).Nodup && s.oneOf.all (fun e => match e.ty with
    | .ptr t => notPtr t
    | _ => false)

theorem find_oneOf {l : List Hidden} (hnd : (l.map Hidden.go).Nodup) {e : Hidden} (h : e ∈ l) :
    l.find? (fun h => h.go == e.go) = some e := by
  induction l with
  | nil => cases h
  | cons x l ih =>
    rw [List.map_cons, List.nodup_cons] at hnd
    rw [List.find?_cons]
    rcases List.mem_cons.1 h with rfl | h
    · simp
    · have : (x.go == e.go) = false := by
        rw [beq_eq_false_iff_ne]
        intro eq
        apply hnd.1
        rw [eq]
        exact List.mem_map_of_mem h
      rw [this]
      exact ih hnd.2 h

theorem hidden_eq {a b : Hidden} {l : List Hidden} (hnd : (l.map Hidden.go).Nodup) (ha : a ∈ l) (hb : b ∈ l)
    (h : a.go = b.go) : a = b := by
  have h1 := find_oneOf hnd ha
  have h2 := find_oneOf hnd hb
  rw [h, h2] at h1
  exact (Option.some.inj h1).symm

theorem split_mem {α : Type} {l : List α} {x : α} (h : x ∈ l) : ∃ l1 l2, l = l1 ++ x :: l2 :=
  List.append_of_mem h

theorem encode_union {n : String} {s : Struct} (hn : GoMap.get? T n = some (.struct s))
    (hs : s = { oneOf := s.oneOf, parts := s.oneOf.map (fun h => .hidden h.go) })
    (hc : unionCheckTy s = true) {go : String} {t : Ty} {v : Val} (ho : ⟨go, .ptr t⟩ ∈ s.oneOf) {j : Any}
    (he : encode T (.ptr t) v = some j) (hj : j ≠ .null) :
    encode T (.named n) (.struct (s.oneOf.map (fun h => (h.go, if h.go = go then v else .nil)))) = some j := by
  unfold unionCheckTy at hc
  simp only [Bool.and_eq_true, decide_eq_true_eq, List.all_eq_true] at hc
  obtain ⟨hnd, hty⟩ := hc
  rw [encode_struct hn]
  have hhid : s.hidden = s.oneOf := by rw [hs]; simp [Struct.hidden]
  have hparts : s.parts = s.oneOf.map (fun h => .hidden h.go) := by rw [hs]
  have hall : mapAll (encodePart s ((s.oneOf.map (fun h => (h.go, if h.go = go then v else .nil))).map (slotFor T)))
      s.parts = some (s.oneOf.map (fun h => if h.go = go then j else .null)) := by
    rw [hparts, mapAll_map]
    apply mapAll_some_of
    intro e hee
    simp only [encodePart]
    rw [slotOf_get (v := if e.go = go then v else .nil)]
    · unfold hiddenTy
      rw [hhid, find_oneOf hnd hee]
      simp only [Option.map_some, slotFor]
      split
      · rename_i eq
        have : e = ⟨go, .ptr t⟩ := hidden_eq hnd hee ho eq
        rw [this]
        exact he
      · have := hty e hee
        split at this
        · rename_i t' ht'
          rw [ht']
          rfl
        · cases this
    · simpa [Function.comp_def] using hnd
    · exact List.mem_map.2 ⟨e, hee, rfl⟩
  rw [hall]
  obtain ⟨l1, l2, hl⟩ := split_mem ho
  simp only
  rw [hl, List.map_append, List.map_cons, if_pos rfl]
  rw [hl] at hnd
  rw [List.map_append, List.map_cons, List.nodup_append, List.nodup_cons] at hnd
  apply unionJ_one
  · intro x hx
    obtain ⟨e, he', rfl⟩ := List.mem_map.1 hx
    rw [if_neg]
    intro eq
    exact hnd.2.2 e.go (List.mem_map_of_mem he') go List.mem_cons_self eq
  · intro x hx
    obtain ⟨e, he', rfl⟩ := List.mem_map.1 hx
    rw [if_neg]
    intro eq
    exact hnd.2.1.1 (List.mem_map.2 ⟨e, he', eq⟩)
  · exact hj

theorem decode_union (hT : Ranked T) {n : String} {s : Struct} (hn : GoMap.get? T n = some (.struct s))
    (hs : s = { oneOf := s.oneOf, parts := s.oneOf.map (fun h => .hidden h.go) })
    (hc : unionCheckTy s = true) {go : String} {t : Ty} (ho : ⟨go, .ptr t⟩ ∈ s.oneOf) {j : Any} {w : Val}
    (hd : decode T N (.ptr t) j = some w) (hx : ∀ e ∈ s.oneOf, e.go ≠ go → decode T N e.ty j = none) :
    decode T N (.named n) j = some (.struct (s.oneOf.map (fun h => (h.go, if h.go = go then w else .nil)))) := by
  unfold unionCheckTy at hc
  simp only [Bool.and_eq_true, decide_eq_true_eq, List.all_eq_true] at hc
  rw [decode_struct_some hT hn]
  have e1 : s.nots = [] := by rw [hs]
  have e2 : s.fields = [] := by rw [hs]
  have e3 : s.embeds = [] := by rw [hs]
  have e4 : s.decodes = false := by rw [hs]
  have e5 : s.patterns = [] := by rw [hs]
  have e6 : s.additional = none := by rw [hs]
  have e7 : s.strict = false := by rw [hs]
  refine ⟨(by rw [e1]; intro t ht; cases ht), [], [],
    s.oneOf.map (fun h => (h.go, if h.go = go then w else .nil)), [], ?_, ?_, ?_, ?_, ?_, ?_⟩
  · unfold decodeFields
    rw [e4, e2]
    cases view T N j <;> rfl
  · rw [e3]; rfl
  · rw [decodeOneOf_some (List.ne_nil_of_mem ho) hc.1]
    exact ⟨_, ho, w, hd, hx, rfl⟩
  · rw [rawChecks_iff, hs]
    refine ⟨?_, ?_, ?_, ?_, ?_, ?_⟩
    · intro k hk; cases hk
    · intro a b hab; cases hab
    · intro k hk; cases hk
    · intro k hk; cases hk
    · intro k hk; cases hk
    · intro k hk; cases hk
  · unfold decodeRest
    rw [e5, e6, e7]
    rfl
  · simp

/-! ## What a JSON object of a type looks like -/

/-- The keys a struct may be written with. -/
def mayKey (s : Struct) (k : String) : Bool :=
  s.consts.any (fun c => c.1 == k) || s.fields.any (fun f => f.key == k) ||
    s.patterns.any (fun q => q.pat.matches k) || s.additional.isSome

/-- The members a struct is written with. -/
structure Profile (s : Struct) (M : List (String × Any)) : Prop where
  keys : ∀ p ∈ M, mayKey s p.1 = true
  consts : ∀ c ∈ s.consts, c.1 ∈ M.map Prod.fst ∧ ∀ p ∈ M, p.1 = c.1 → p.2 = c.2.json
  must : ∀ f ∈ s.fields, f.omitempty = false → f.key ∈ M.map Prod.fst

theorem is_json {c : Const} {a : Any} (h : c.is a = true) : a = c.json := by
  cases c <;> cases a <;> simp_all [Const.is, Const.json]

theorem profile_members {s : Struct} (hb : Base s) {val : String → Val} {E : List (String × Any)}
    (hpk : ∀ q ∈ s.patterns, ∀ k ∈ keysOf (val q.go), q.pat.matches k = true)
    (hE : ∀ p ∈ E, mayKey s p.1 = true) (hE' : ∀ p ∈ E, ∀ c ∈ s.consts, p.1 = c.1 → c.2.is p.2 = true) :
    Profile s (membersFor T s val E) := by
  refine ⟨?_, ?_, ?_⟩
  · intro p hp
    unfold membersFor at hp
    simp only [List.mem_append] at hp
    unfold mayKey
    simp only [Bool.or_eq_true, List.any_eq_true, beq_iff_eq]
    rcases hp with (((hp | hp) | hp) | hp) | hp
    · unfold constMembers at hp
      obtain ⟨c, hc, rfl⟩ := List.mem_map.1 hp
      exact .inl (.inl (.inl ⟨c, hc, rfl⟩))
    · obtain ⟨g, hg, ho, rfl⟩ := mem_fieldMembers.1 hp
      exact .inl (.inl (.inr ⟨g, hg, rfl⟩))
    · unfold patMembers at hp
      obtain ⟨q, hq, hp⟩ := List.mem_flatMap.1 hp
      exact .inl (.inr ⟨q, hq, hpk q hq p.1 (mem_mapMembers hp)⟩)
    · unfold addMembers at hp
      split at hp
      · rename_i a ha
        exact .inr (by rw [ha]; rfl)
      · cases hp
    · have := hE p hp
      unfold mayKey at this
      simpa only [Bool.or_eq_true, List.any_eq_true, beq_iff_eq] using this
  · intro c hc
    exact ⟨List.mem_map.2 ⟨_, const_key hc, rfl⟩, fun p hp e => is_json (members_const hb hpk hE' hc hp e)⟩
  · intro f hf ho
    have h0 : omitted f (val f.go) = false := by unfold omitted; rw [ho]; rfl
    exact written_key ⟨f, hf, rfl, h0⟩

/-- Nothing written as `s` can be read as another struct, for one of several reasons. -/
def exclStruct (s s' : Struct) : Bool :=
  s'.require.any (fun k => !mayKey s k) ||
  (s'.strict && s'.additional.isNone && (s.consts.map Prod.fst ++ (s.fields.filter (fun f => !f.omitempty)).map
    Field.key).any (fun k => !s'.known.contains k && !s'.consts.any (fun c => c.1 == k) &&
      !s'.notConsts.any (fun c => c.1 == k) && !s'.patterns.any (fun q => q.pat.matches k))) ||
  s.consts.any (fun c => s'.consts.any (fun c' => c.1 == c'.1 && !c'.2.is c.2.json)) ||
  (match s'.exactlyOne with
    | some (a, b) => !mayKey s a && !mayKey s b
    | none => false)

theorem exclStruct_sound (hT : Ranked T) {s s' : Struct} {n : String} (hn : GoMap.get? T n = some (.struct s'))
    (h : exclStruct s s' = true) {M : List (String × Any)} (hM : Profile s M) :
    decode T N (.named n) (.obj M) = none := by
  have hmiss : ∀ k, mayKey s k = false → k ∉ M.map Prod.fst := by
    intro k hk hmem
    obtain ⟨p, hp, rfl⟩ := List.mem_map.1 hmem
    rw [hM.keys p hp] at hk
    cases hk
  unfold exclStruct at h
  simp only [Bool.or_eq_true] at h
  rcases h with ((h | h) | h) | h
  · rw [List.any_eq_true] at h
    obtain ⟨k, hk, h⟩ := h
    apply decode_missing hT hn hk
    simp only [HasMember]
    exact hmiss k (by simpa using h)
  · simp only [Bool.and_eq_true, List.any_eq_true, Bool.not_eq_true', Option.isNone_iff_eq_none] at h
    obtain ⟨⟨h1, h2⟩, k, hk, ⟨⟨h3, h4⟩, h5⟩, h6⟩ := h
    have hmem : k ∈ M.map Prod.fst := by
      rcases List.mem_append.1 hk with hk | hk
      · obtain ⟨c, hc, rfl⟩ := List.mem_map.1 hk
        exact (hM.consts c hc).1
      · obtain ⟨f, hf, rfl⟩ := List.mem_map.1 hk
        obtain ⟨hf, ho⟩ := List.mem_filter.1 hf
        exact hM.must f hf (by simpa using ho)
    apply decode_unknown hT hn h1 h2 hmem
    · intro hk'
      rw [List.contains_iff_mem.2 hk'] at h3
      cases h3
    · intro c hc e
      rw [List.any_eq_false] at h4
      exact h4 c hc (by simpa using e)
    · intro c hc e
      rw [List.any_eq_false] at h5
      exact h5 c hc (by simpa using e)
    · intro q hq
      rw [List.any_eq_false] at h6
      simpa using h6 q hq
  · rw [List.any_eq_true] at h
    obtain ⟨c, hc, h⟩ := h
    rw [List.any_eq_true] at h
    obtain ⟨c', hc', h⟩ := h
    simp only [Bool.and_eq_true, beq_iff_eq, Bool.not_eq_true'] at h
    cases hd : decode T N (.named n) (.obj M) with
    | none => rfl
    | some w =>
      exfalso
      obtain ⟨_, fvals, _, _, _, _, _, _, hr, _⟩ := (decode_struct_some hT hn).1 hd
      have hr := (rawChecks_iff.1 hr).2.2.1 c' hc'
      simp only [membersOf] at hr
      rw [rawMap_get?] at hr
      obtain ⟨hk, hv⟩ := hM.consts c hc
      have : ∃ a, Spec.lastValue M c'.1 = some a ∧ (c'.1, a) ∈ M := by
        unfold Spec.lastValue
        cases hf : M.reverse.find? (fun p => p.1 == c'.1) with
        | none =>
          exfalso
          rw [List.find?_eq_none] at hf
          obtain ⟨p, hp, e⟩ := List.mem_map.1 hk
          exact hf p (List.mem_reverse.2 hp) (by rw [e, h.1]; simp)
        | some p =>
          have e := List.find?_some hf
          rw [beq_iff_eq] at e
          refine ⟨p.2, rfl, ?_⟩
          rw [← e]
          exact List.mem_reverse.1 (List.mem_of_find?_eq_some hf)
      obtain ⟨a, ha, hmem⟩ := this
      have := hr (memberOf T N (c'.1, a)) (by rw [ha]; rfl)
      simp only [memberOf] at this
      have ea : a = c.2.json := hv _ hmem h.1.symm
      rw [ea] at this
      rw [this] at h
      cases h.2
  · cases hx : s'.exactlyOne with
    | none => rw [hx] at h; cases h
    | some ab =>
      obtain ⟨a, b⟩ := ab
      rw [hx] at h
      simp only [Bool.and_eq_true, Bool.not_eq_true'] at h
      cases hd : decode T N (.named n) (.obj M) with
      | none => rfl
      | some w =>
        exfalso
        obtain ⟨_, fvals, _, _, _, _, _, _, hr, _⟩ := (decode_struct_some hT hn).1 hd
        have hr := (rawChecks_iff.1 hr).2.1 a b hx
        simp only [membersOf] at hr
        apply hr
        have e1 : hasKey (M.map (memberOf T N)) a = false := by
          rw [← Bool.not_eq_true, hasKey_obj]
          exact hmiss a h.1
        have e2 : hasKey (M.map (memberOf T N)) b = false := by
          rw [← Bool.not_eq_true, hasKey_obj]
          exact hmiss b h.2
        rw [e1, e2]

theorem decode_no_alternative (hT : Ranked T) {s : Struct} {n : String} (hn : GoMap.get? T n = some (.struct s))
    (hne : s.oneOf ≠ []) (hnd : (s.oneOf.map Hidden.go).Nodup) {j : Any}
    (h : ∀ e ∈ s.oneOf, decode T N e.ty j = none) : decode T N (.named n) j = none := by
  cases hd : decode T N (.named n) j with
  | none => rfl
  | some w =>
    exfalso
    obtain ⟨_, _, _, ovals, _, _, _, ho, _⟩ := (decode_struct_some hT hn).1 hd
    obtain ⟨e, he, v, hv, _⟩ := (decodeOneOf_some hne hnd).1 ho
    rw [h e he] at hv
    cases hv

/-- The same with a type that may have alternatives. -/
def exclTy (T : Table) (s : Struct) : Ty → Bool
  | .bool => true
  | .named n => match GoMap.get? T n with
    | some (.struct s') => exclStruct s s' || (s'.oneOf != [] && decide (s'.oneOf.map Hidden.go).Nodup &&
        s'.oneOf.all (fun e => match e.ty with
          | .ptr (.named m) => match GoMap.get? T m with
            | some (.struct s'') => exclStruct s s''
            | _ => false
          | _ => false))
    | _ => false
  | _ => false

theorem exclTy_sound (hT : Ranked T) {s : Struct} {t : Ty} (h : exclTy T s t = true) {M : List (String × Any)}
    (hM : Profile s M) : decode T N t (.obj M) = none := by
  unfold exclTy at h
  split at h
  · rw [decode_bool]
  · rename_i n
    split at h
    · rename_i s' hs'
      simp only [Bool.or_eq_true, Bool.and_eq_true, List.all_eq_true, bne_iff_ne, decide_eq_true_eq] at h
      rcases h with h | ⟨⟨h1, h2⟩, h3⟩
      · exact exclStruct_sound hT hs' h hM
      · apply decode_no_alternative hT hs' h1 h2
        intro e he
        have := h3 e he
        split at this
        · rename_i m hm
          split at this
          · rename_i s'' hs''
            rw [hm, decode_ptr hT rfl]
            exact exclStruct_sound hT hs'' this hM
          · cases this
        · cases this
    · cases h
  · cases h

end Verif
