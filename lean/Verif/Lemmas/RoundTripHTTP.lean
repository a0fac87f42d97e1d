import Verif.Lemmas.RoundTripExcl
import Verif.Lemmas.AgainMain

/-! The HTTP security scheme of 3.0 is read back. -/

namespace Verif
open Codec Spec

variable {T : Table} {N : Nums}

/-! ## Small structs -/

theorem lastValue_mem {M : List (String × Any)} {k : String} {a : Any} (h : lastValue M k = some a) : (k, a) ∈ M := by
  unfold lastValue at h
  rw [Option.map_eq_some_iff] at h
  obtain ⟨p, hf, e⟩ := h
  have := List.find?_some hf
  rw [beq_iff_eq] at this
  rw [← this, ← e]
  exact List.mem_reverse.1 (List.mem_of_find?_eq_some hf)

theorem lastValue_of_mem {M : List (String × Any)} {k : String} (h : k ∈ M.map Prod.fst) :
    ∃ a, lastValue M k = some a := by
  cases hl : lastValue M k with
  | some a => exact ⟨a, rfl⟩
  | none =>
    exfalso
    unfold lastValue at hl
    rw [Option.map_eq_none_iff, List.find?_eq_none] at hl
    obtain ⟨p, hp, e⟩ := List.mem_map.1 h
    exact hl p (List.mem_reverse.2 hp) (by rw [beq_iff_eq]; exact e)

theorem lastValue_key {M : List (String × Any)} {k : String} {a : Any} (h : lastValue M k = some a) :
    k ∈ M.map Prod.fst := List.mem_map.2 ⟨(k, a), lastValue_mem h, rfl⟩

theorem lastValue_split {M : List (String × Any)} {k : String} {a : Any} (h : lastValue M k = some a) :
    ∃ M1 M2, M = M1 ++ (k, a) :: M2 ∧ ∀ p ∈ M2, p.1 ≠ k := by
  unfold lastValue at h
  rw [Option.map_eq_some_iff] at h
  obtain ⟨p, hf, rfl⟩ := h
  obtain ⟨hp, as, bs, e, h⟩ := List.find?_eq_some_iff_append.1 hf
  rw [beq_iff_eq] at hp
  refine ⟨bs.reverse, as.reverse, ?_, ?_⟩
  · have := congrArg List.reverse e
    rw [List.reverse_reverse] at this
    rw [this, ← hp]
    simp
  · intro q hq e
    have := h q (List.mem_reverse.1 hq)
    rw [e] at this
    simp at this

theorem lastValue_append {M1 M2 : List (String × Any)} {k : String} {a : Any} (h : ∀ p ∈ M2, p.1 ≠ k) :
    lastValue (M1 ++ ([(k, a)] ++ M2)) k = some a := by
  unfold lastValue
  have : M2.reverse.find? (fun p => p.1 == k) = none := by
    rw [List.find?_eq_none]
    intro p hp
    rw [beq_iff_eq]
    exact h p (List.mem_reverse.1 hp)
  simp [List.find?_append, this]

/-- A struct with fields and constants only. -/
theorem decode_simple (hT : Ranked T) {n : String} {s : Struct} (hn : GoMap.get? T n = some (.struct s))
    (h0 : s.nots = [] ∧ s.embeds = [] ∧ s.oneOf = [] ∧ s.patterns = [] ∧ s.additional = none ∧ s.strict = false ∧
      s.nulls = [] ∧ s.exactlyOne = none ∧ s.lower = []) {M : List (String × Any)} {fvals : List (String × Val)}
    (hf : decodeFields T s (view T N (.obj M)) = some fvals)
    (hreq : ∀ k ∈ s.require, k ∈ M.map Prod.fst)
    (hc : ∀ c ∈ s.consts, ∀ p ∈ M, p.1 = c.1 → c.2.is p.2 = true)
    (hnc : ∀ c ∈ s.notConsts, ∀ p ∈ M, p.1 = c.1 → c.2.is p.2 = false)
    (hfb : ∀ k ∈ s.forbid, k ∉ M.map Prod.fst) :
    decode T N (.named n) (.obj M) = some (.struct fvals) := by
  obtain ⟨e1, e2, e3, e4, e5, e6, e7, e8, e9⟩ := h0
  rw [decode_struct_some hT hn]
  refine ⟨(by rw [e1]; intro t ht; cases ht), fvals, [], [], [], hf, (by rw [e2]; rfl), (by rw [e3]; rfl), ?_, ?_, ?_⟩
  · rw [rawChecks_iff]
    simp only [membersOf]
    refine ⟨fun k hk => hasKey_obj.2 (hreq k hk), (by rw [e8]; intro a b h; cases h), ?_, ?_, ?_, (by
      rw [e9]; intro c h; cases h)⟩
    · intro c hcm m hm
      rw [rawMap_get?] at hm
      rw [Option.map_eq_some_iff] at hm
      obtain ⟨a, ha, rfl⟩ := hm
      exact hc c hcm _ (lastValue_mem ha) rfl
    · intro c hcm m hm
      rw [rawMap_get?] at hm
      rw [Option.map_eq_some_iff] at hm
      obtain ⟨a, ha, rfl⟩ := hm
      exact hnc c hcm _ (lastValue_mem ha) rfl
    · intro k hk
      rw [← Bool.not_eq_true, hasKey_obj]
      exact hfb k hk
  · unfold decodeRest
    simp only [e4, e5, e6]
    rfl
  · have : fvals.map (rememberNull s (membersOf T N (.obj M))) = fvals := by
      have : ∀ p ∈ fvals, rememberNull s (membersOf T N (.obj M)) p = p := by
        intro p _
        unfold rememberNull
        rw [e7]
        split
        · rfl
        · rfl
      have := List.map_congr_left this
      rw [this]
      exact List.map_id _
    rw [this]
    simp

theorem decode_const_none (hT : Ranked T) {n : String} {s : Struct} (hn : GoMap.get? T n = some (.struct s))
    {c : String × Const} (hc : c ∈ s.consts) {M : List (String × Any)} (hk : c.1 ∈ M.map Prod.fst)
    (h : ∀ p ∈ M, p.1 = c.1 → c.2.is p.2 = false) : decode T N (.named n) (.obj M) = none := by
  cases hd : decode T N (.named n) (.obj M) with
  | none => rfl
  | some w =>
    exfalso
    obtain ⟨_, _, _, _, _, _, _, _, h4, _⟩ := (decode_struct_some hT hn).1 hd
    obtain ⟨a, ha⟩ := lastValue_of_mem hk
    have := (rawChecks_iff.1 h4).2.2.1 c hc (memberOf T N (c.1, a)) (by
      simp only [membersOf]
      rw [rawMap_get?, ha]; rfl)
    rw [show (memberOf T N (c.1, a)).val = a from rfl, h _ (lastValue_mem ha) rfl] at this
    cases this

theorem decode_notConst_none (hT : Ranked T) {n : String} {s : Struct} (hn : GoMap.get? T n = some (.struct s))
    {c : String × Const} (hc : c ∈ s.notConsts) {M : List (String × Any)} (hk : c.1 ∈ M.map Prod.fst)
    (h : ∀ p ∈ M, p.1 = c.1 → c.2.is p.2 = true) : decode T N (.named n) (.obj M) = none := by
  cases hd : decode T N (.named n) (.obj M) with
  | none => rfl
  | some w =>
    exfalso
    obtain ⟨_, _, _, _, _, _, _, _, h4, _⟩ := (decode_struct_some hT hn).1 hd
    obtain ⟨a, ha⟩ := lastValue_of_mem hk
    have := (rawChecks_iff.1 h4).2.2.2.1 c hc (memberOf T N (c.1, a)) (by
      simp only [membersOf]
      rw [rawMap_get?, ha]; rfl)
    rw [show (memberOf T N (c.1, a)).val = a from rfl, h _ (lastValue_mem ha) rfl] at this
    cases this

/-! ## The scheme -/

theorem good_str {v : Val} (h : Good T N .str v) : ∃ s, v = .str s := by
  obtain ⟨j, hj⟩ := h.rt.writes
  obtain ⟨s, h, _⟩ := encode_str_eq hj
  exact ⟨s, h⟩

theorem http30_both (hT : Ranked T) (hB : GoMap.get? T "Bearer" = some (.struct V30.sBearer))
    (hN : GoMap.get? T "NonBearer" = some (.struct V30.sNonBearer))
    (hn : GoMap.get? T "HTTPSecurityScheme" = some (.struct V30.sHTTPSecurityScheme)) (val : String → Val)
    (hf : ∀ f ∈ V30.sHTTPSecurityScheme.fields, Good T N f.ty (val f.go))
    (hp : Good T N (.map .any) (val "MapOfAnything")) (hpk : ∀ k ∈ keysOf (val "MapOfAnything"), IsExtension k)
    (hs : (val "Scheme" = .str "bearer" ∧ (val "Bearer" = .nil ∨ val "Bearer" = .struct []) ∧ val "NonBearer" = .nil) ∨
      (val "Scheme" ≠ .str "bearer" ∧ val "BearerFormat" = .nil ∧ val "Bearer" = .nil ∧
        (val "NonBearer" = .nil ∨ val "NonBearer" = .struct [("Scheme", .nil)]))) :
    Good T N (.named "HTTPSecurityScheme") (structOf V30.sHTTPSecurityScheme val) ∧
      ((∀ f ∈ V30.sHTTPSecurityScheme.fields, Again T N f.ty (val f.go)) → MapAgain T N .any (val "MapOfAnything") →
        val "Bearer" ≠ .nil ∨ val "NonBearer" ≠ .nil →
        Again T N (.named "HTTPSecurityScheme") (structOf V30.sHTTPSecurityScheme val)) ∧
      ∃ L, rt T N (.named "HTTPSecurityScheme") (structOf V30.sHTTPSecurityScheme val) = .struct L ∧
        L.map Prod.fst = V30.sHTTPSecurityScheme.names ∧ (fieldIn L "Bearer" ≠ .nil ∨ fieldIn L "NonBearer" ≠ .nil) ∧
        ∀ Q : List (String × Val) → Prop, (∀ fs, fs.length ≤ 4 → Q fs) →
          (∀ f ∈ V30.sHTTPSecurityScheme.fields, Everywhere Q (rt T N f.ty (val f.go))) →
          (∀ p ∈ entries (val "MapOfAnything"), Everywhere Q (rt T N .any p.2)) → ∀ p ∈ L, Everywhere Q p.2 := by
  have hb : Base V30.sHTTPSecurityScheme := base_of_check (by decide +kernel)
  have hpk' : ∀ q ∈ V30.sHTTPSecurityScheme.patterns, ∀ k ∈ keysOf (val q.go), q.pat.matches k = true := by
    intro q hq k hk
    simp only [V30.sHTTPSecurityScheme, List.mem_cons, List.not_mem_nil, or_false] at hq
    subst hq
    exact x_matches.2 (hpk k hk)
  have hF : ∀ f ∈ V30.sHTTPSecurityScheme.fields, FieldRt T N V30.sHTTPSecurityScheme val f :=
    fun f hff => .inr (hf f hff).rt
  have hP : ∀ q ∈ V30.sHTTPSecurityScheme.patterns, MapGood T N q.ty (val q.go) := by
    intro q hq
    simp only [V30.sHTTPSecurityScheme, List.mem_cons, List.not_mem_nil, or_false] at hq
    subst hq
    exact hp.deep
  obtain ⟨sc, hsc⟩ := good_str (hf ⟨"Scheme", "scheme", .str, false⟩ (by decide))
  simp only at hsc
  -- what is written for the two derived parts
  obtain ⟨J, hJ1, hJ2, hJ3⟩ : ∃ J : String → Any,
      (encode T (.ptr (.named "Bearer")) (val "Bearer") = some (J "Bearer") ∧ IsPart (J "Bearer")) ∧
      (encode T (.ptr (.named "NonBearer")) (val "NonBearer") = some (J "NonBearer") ∧ IsPart (J "NonBearer")) ∧
      ∀ p ∈ ["Bearer", "NonBearer"].flatMap (fun go => objMembers (J go)), p = ("scheme", .str sc) := by
    have hbn : encode T (.ptr (.named "Bearer")) (.struct []) = some (.obj [("scheme", .str "bearer")]) := by
      rw [encode_ptr T (by intro h; cases h), encode_struct hB]; rfl
    have hnn : encode T (.ptr (.named "NonBearer")) (.struct [("Scheme", .nil)]) = some (.obj []) := by
      rw [encode_ptr T (by intro h; cases h), encode_struct hN]; rfl
    rcases hs with ⟨h1, h2, h3⟩ | ⟨h1, _, h3, h4⟩
    · have hsc' : sc = "bearer" := by rw [hsc] at h1; exact Val.str.inj h1
      rcases h2 with h2 | h2
      · refine ⟨fun _ => .null, ⟨by rw [h2]; rfl, .inl rfl⟩, ⟨by rw [h3]; rfl, .inl rfl⟩, ?_⟩
        intro p hp; cases hp
      · refine ⟨fun go => if go = "Bearer" then .obj [("scheme", .str "bearer")] else .null, ⟨by rw [h2]; exact hbn, .inr ⟨_, rfl⟩⟩,
          ⟨by rw [h3]; rfl, .inl rfl⟩, ?_⟩
        intro p hp
        rw [hsc']
        exact List.mem_singleton.1 hp
    · rcases h4 with h4 | h4
      · refine ⟨fun _ => .null, ⟨by rw [h3]; rfl, .inl rfl⟩, ⟨by rw [h4]; rfl, .inl rfl⟩, ?_⟩
        intro p hp; cases hp
      · refine ⟨fun go => if go = "Bearer" then .null else .obj [], ⟨by rw [h3]; rfl, .inl rfl⟩,
          ⟨by rw [h4]; exact hnn, .inr ⟨_, rfl⟩⟩, ?_⟩
        intro p hp; cases hp
  generalize hE : ["Bearer", "NonBearer"].flatMap (fun go => objMembers (J go)) = E at hJ3
  have hJk : ∀ p ∈ E, p.1 = "scheme" := fun p hp => by rw [hJ3 p hp]
  have henc : encode T (.named "HTTPSecurityScheme") (structOf V30.sHTTPSecurityScheme val) =
      some (.obj (membersFor T V30.sHTTPSecurityScheme val E)) := by
    rw [encode_parts hn hb.names (X := ["Bearer", "NonBearer"]) (J := J) rfl hb.hidden
      (fun f hff => field_encodes hb hff (hF f hff)) (fun q hq => (hP q hq).ok) (by intro a ha; cases ha), hE]
    · rfl
    · intro go hgo
      simp only [List.mem_cons, List.not_mem_nil, or_false] at hgo
      rcases hgo with rfl | rfl
      · exact ⟨_, rfl, by decide, hJ1⟩
      · exact ⟨_, rfl, by decide, hJ2⟩
  have hEf : ∀ p ∈ E, ∀ f ∈ V30.sHTTPSecurityScheme.fields, fieldOf V30.sHTTPSecurityScheme.fields p.1 = some f →
      p.1 = f.key ∧ omitted f (val f.go) = false ∧ p.2 = enc T f.ty (val f.go) := by
    intro p hp f hf hfo
    rw [hJk p hp] at hfo
    rw [hJ3 p hp]
    have : f = ⟨"Scheme", "scheme", .str, false⟩ := Option.some.inj (hfo.symm.trans (by decide +kernel))
    subst this
    refine ⟨rfl, rfl, ?_⟩
    simp only [hsc]
    rfl
  have hEc : ∀ p ∈ E, ∀ c ∈ V30.sHTTPSecurityScheme.consts, p.1 = c.1 → c.2.is p.2 = true := by
    intro p hp c hc e
    rw [hJk p hp] at e
    simp only [V30.sHTTPSecurityScheme, List.mem_cons, List.not_mem_nil, or_false] at hc
    rw [hc] at e
    exact absurd e (by decide)
  have hEk : ∀ p ∈ E, kept V30.sHTTPSecurityScheme p.1 = false := by
    intro p hp
    rw [hJk p hp]
    decide +kernel
  generalize hM : membersFor T V30.sHTTPSecurityScheme val E = M at henc
  have hprof : Profile V30.sHTTPSecurityScheme M := by
    rw [← hM]
    refine profile_members hb hpk' ?_ hEc
    intro p hp
    rw [hJk p hp]
    decide +kernel
  have hscheme : ∀ p ∈ M, p.1 = "scheme" → p.2 = .str sc := by
    intro p hp e
    rw [← hM] at hp
    have := (members_field hb hpk' hEf hp (f := ⟨"Scheme", "scheme", .str, false⟩) (by decide)
      (by rw [e]; decide +kernel)).2.2
    rw [this]
    simp only [hsc]
    rfl
  have hschemeKey : "scheme" ∈ M.map Prod.fst := hprof.must ⟨"Scheme", "scheme", .str, false⟩ (by decide) rfl
  -- exactly one of the two derived parts is read
  obtain ⟨ovals, hone, hosame, hokeep, honames, hofill⟩ : ∃ ovals,
      decodeOneOf (fun t => decode T N t (.obj M)) V30.sHTTPSecurityScheme.oneOf = some ovals ∧
      SameFilled [("Bearer", val "Bearer"), ("NonBearer", val "NonBearer")] ovals ∧
      (val "Bearer" ≠ .nil ∨ val "NonBearer" ≠ .nil →
        ovals = [("Bearer", val "Bearer"), ("NonBearer", val "NonBearer")]) ∧
      ovals.map Prod.fst = ["Bearer", "NonBearer"] ∧
      (ovals = [("Bearer", .struct []), ("NonBearer", .nil)] ∨
        ovals = [("Bearer", .nil), ("NonBearer", .struct [("Scheme", .nil)])]) := by
    have key : ∀ a b, decode T N (.ptr (.named "Bearer")) (.obj M) = a →
        decode T N (.ptr (.named "NonBearer")) (.obj M) = b → a.isSome = !b.isSome →
        decodeOneOf (fun t => decode T N t (.obj M)) V30.sHTTPSecurityScheme.oneOf =
          some [("Bearer", a.getD .nil), ("NonBearer", b.getD .nil)] := by
      intro a b ha hb hab
      unfold decodeOneOf
      simp only [V30.sHTTPSecurityScheme, List.filter_cons, List.filter_nil, ha, hb, List.map_cons, List.map_nil]
      rw [if_neg (by decide), if_pos]
      cases a <;> cases b <;> first | rfl | cases hab
    by_cases e : sc = "bearer"
    · subst e
      have hBd : decode T N (.ptr (.named "Bearer")) (.obj M) = some (.struct []) := by
        rw [decode_ptr_obj hT rfl]
        apply decode_simple hT hB ⟨rfl, rfl, rfl, rfl, rfl, rfl, rfl, rfl, rfl⟩ rfl
        · intro k hk; cases hk
        · intro c hc p hp e
          simp only [V30.sBearer, List.mem_cons, List.not_mem_nil, or_false] at hc
          subst hc
          rw [hscheme p hp e]; rfl
        · intro c hc; cases hc
        · intro k hk; cases hk
      have hNd : decode T N (.ptr (.named "NonBearer")) (.obj M) = none := by
        rw [decode_ptr_obj hT rfl]
        refine decode_notConst_none hT hN (c := ("scheme", .str "bearer")) (by decide) hschemeKey ?_
        intro p hp e
        rw [hscheme p hp e]; rfl
      refine ⟨_, key _ _ hBd hNd rfl, ?_⟩
      rcases hs with ⟨h1, h2, h3⟩ | ⟨h1, _⟩
      · rw [h3]
        rcases h2 with h2 | h2 <;> rw [h2]
        · exact ⟨.derived (by decide) (.cons (.same _) .nil), fun h => absurd rfl (h.elim id id), rfl, .inl rfl⟩
        · exact ⟨.cons (.same _) (.cons (.same _) .nil), fun _ => rfl, rfl, .inl rfl⟩
      · exact absurd hsc h1
    · have hBd : decode T N (.ptr (.named "Bearer")) (.obj M) = none := by
        rw [decode_ptr_obj hT rfl]
        refine decode_const_none hT hB (c := ("scheme", .str "bearer")) (by decide) hschemeKey ?_
        intro p hp e'
        rw [hscheme p hp e']
        simp only [Const.is, beq_eq_false_iff_ne]
        exact fun h => e h.symm
      rcases hs with ⟨h1, _⟩ | ⟨h1, h2, h3, h4⟩
      · rw [hsc] at h1; exact absurd (Val.str.inj h1) e
      · have hNd : decode T N (.ptr (.named "NonBearer")) (.obj M) = some (.struct [("Scheme", .nil)]) := by
          rw [decode_ptr_obj hT rfl]
          apply decode_simple hT hN ⟨rfl, rfl, rfl, rfl, rfl, rfl, rfl, rfl, rfl⟩ rfl
          · intro k hk; cases hk
          · intro c hc; cases hc
          · intro c hc p hp e'
            simp only [V30.sNonBearer, List.mem_cons, List.not_mem_nil, or_false] at hc
            subst hc
            rw [hscheme p hp e']
            simp only [Const.is, beq_eq_false_iff_ne]
            exact fun h => e h.symm
          · intro k hk
            simp only [V30.sNonBearer, List.mem_cons, List.not_mem_nil, or_false] at hk
            subst hk
            rw [← hM]
            have := members_key (T := T) hb hpk' hEf (f := ⟨"BearerFormat", "bearerFormat", .ptr .str, true⟩) (by decide)
            simp only [h2] at this
            rw [this]
            decide
        refine ⟨_, key _ _ hBd hNd rfl, ?_⟩
        rw [h3]
        rcases h4 with h4 | h4 <;> rw [h4]
        · exact ⟨.cons (.same _) (.derived (by decide) .nil), fun h => absurd rfl (h.elim id id), rfl, .inr rfl⟩
        · exact ⟨.cons (.same _) (.cons (.same _) .nil), fun _ => rfl, rfl, .inr rfl⟩
  obtain ⟨hd, hw⟩ := decode_good (M := M) (evals := []) (ovals := ovals) hT hn hb hF
    (fun p hp f hf hfo => (members_field hb hpk' hEf (by rw [hM]; exact hp) hf hfo).2)
    (fun f hf => by rw [← hM]; exact members_key hb hpk' hEf hf)
    (by intro t ht; cases ht) rfl hone
    (by
      intro k hk
      simp only [V30.sHTTPSecurityScheme, List.mem_cons, List.not_mem_nil, or_false] at hk
      rcases hk with rfl | rfl
      · exact hschemeKey
      · exact (hprof.consts ("type", .str "http") (by decide)).1)
    (by intro a b h; cases h)
    (fun c hc p hp e => members_const hb hpk' hEc hc (by rw [hM]; exact hp) e)
    (by intro c hc; cases hc)
    (fun q hq => ⟨by
      rw [← hM]
      exact filter_pattern hb hpk' (by intro a ha; cases ha) (fun p hp => .inl (hEk p hp)) hq, (hP q hq).rt⟩)
    (fun _ => by
      rw [← hM]
      exact filter_rest hb hpk' (by intro a ha; cases ha) hEk (.inr rfl))
  refine ⟨⟨⟨_, _, henc, hd, ?_⟩, ?_, ?_⟩, ?_, _, by unfold rt; rw [henc, Option.bind_some, hd]; rfl, ?_, ?_, ?_⟩
  · unfold structOf
    have e : V30.sHTTPSecurityScheme.names.map (fun go => (go, val go)) =
        V30.sHTTPSecurityScheme.fields.map (fun f => (f.go, val f.go)) ++ [] ++
          [("Bearer", val "Bearer"), ("NonBearer", val "NonBearer")] ++
          (V30.sHTTPSecurityScheme.patterns.map (fun q => (q.go, val q.go)) ++ []) := rfl
    rw [e]
    refine .filled (.inr rfl) (sameFilled_append (sameFilled_append (sameFilled_append ?_ .nil) hosame) (sameFilled_append ?_ .nil))
    · exact sameFilled_map (g := Field.go) (fun f hf => .inl (hw f hf))
    · exact sameFilled_map (g := PatField.go) (fun q hq => .inl (hP q hq).same)
  · intro s' hs'
    rw [hn] at hs'
    cases hs'
    refine ⟨fun h => absurd h.2 (by decide), fun _ => .inr ⟨M, henc, fun _ => hprof, fun h => absurd h (by decide)⟩⟩
  · rw [henc]
    intro e; cases e
  · intro haf hap hfill
    have hov := hokeep hfill
    rw [hov] at hd
    refine again_of henc hd ?_
    have hkey := field_hasKey (T := T) (N := N) (M := M)
      (fun f hf => by rw [← hM]; exact members_key hb hpk' hEf hf)
    generalize hL : V30.sHTTPSecurityScheme.fields.map (fun f => (f.go, fieldBack T N V30.sHTTPSecurityScheme val M f)) ++
      [] ++ [("Bearer", val "Bearer"), ("NonBearer", val "NonBearer")] ++
      (V30.sHTTPSecurityScheme.patterns.map (fun q => (q.go, mapVal T N q.ty (val q.go))) ++
        addVals T N V30.sHTTPSecurityScheme val) = L
    have hLn : L.map Prod.fst = V30.sHTTPSecurityScheme.names := by rw [← hL]; rfl
    have hndL : (L.map Prod.fst).Nodup := by rw [hLn]; exact hb.names
    rw [structOf_fieldIn hLn hb.names, encode_again (N := N) hn hb (X := ["Bearer", "NonBearer"]) (J := J) rfl (val := val), hE, hM]
    · intro f hff
      rw [fieldIn_mem hndL (k := f.go) (v := fieldBack T N V30.sHTTPSecurityScheme val M f)]
      · exact field_again hT hb hff (.inr ⟨hf f hff, haf f hff⟩) (hkey f hff)
      · rw [← hL]
        simp only [List.mem_append, List.mem_map]
        exact .inl (.inl (.inl ⟨f, hff, rfl⟩))
    · intro q hq
      refine ⟨fieldIn_mem hndL ?_, hP q hq, ?_⟩
      · rw [← hL]
        simp only [List.mem_append, List.mem_map]
        exact .inr (.inl ⟨q, hq, rfl⟩)
      · simp only [V30.sHTTPSecurityScheme, List.mem_cons, List.not_mem_nil, or_false] at hq
        subst hq
        exact hap
    · intro a ha; cases ha
    · intro go hgo
      simp only [List.mem_cons, List.not_mem_nil, or_false] at hgo
      rcases hgo with rfl | rfl
      · refine ⟨_, rfl, by decide, ?_⟩
        rw [fieldIn_mem hndL (k := "Bearer") (v := val "Bearer") (by rw [← hL]; simp)]
        exact hJ1
      · refine ⟨_, rfl, by decide, ?_⟩
        rw [fieldIn_mem hndL (k := "NonBearer") (v := val "NonBearer") (by rw [← hL]; simp)]
        exact hJ2
  · rcases hofill with rfl | rfl <;> rfl
  · rcases hofill with rfl | rfl
    · left; intro h; cases h
    · right; intro h; cases h
  · intro Q hq qf qp p hp
    simp only [List.append_nil, List.mem_append, List.mem_map] at hp
    rcases hp with (⟨f, hff, rfl⟩ | hp) | ⟨q, hqq, rfl⟩ | hp
    · exact fieldBack_everywhere hT hb hff (fun _ => qf f hff)
    · rcases hofill with rfl | rfl <;> simp only [List.mem_cons, List.not_mem_nil, or_false] at hp <;> rcases hp with rfl | rfl
      · exact everywhere_struct (hq _ (by decide)) (by intro p hp; cases hp)
      · exact everywhere_nil
      · exact everywhere_nil
      · refine everywhere_struct (hq _ (by decide)) ?_
        intro p hp
        cases List.mem_singleton.1 hp
        exact everywhere_nil
    · simp only [V30.sHTTPSecurityScheme, List.mem_cons, List.not_mem_nil, or_false] at hqq
      subst hqq
      exact mapVal_everywhere qp
    · cases hp

theorem http30 (hT : Ranked T) (hB : GoMap.get? T "Bearer" = some (.struct V30.sBearer))
    (hN : GoMap.get? T "NonBearer" = some (.struct V30.sNonBearer))
    (hn : GoMap.get? T "HTTPSecurityScheme" = some (.struct V30.sHTTPSecurityScheme)) (val : String → Val)
    (hf : ∀ f ∈ V30.sHTTPSecurityScheme.fields, Good T N f.ty (val f.go))
    (hp : Good T N (.map .any) (val "MapOfAnything")) (hpk : ∀ k ∈ keysOf (val "MapOfAnything"), IsExtension k)
    (hs : (val "Scheme" = .str "bearer" ∧ (val "Bearer" = .nil ∨ val "Bearer" = .struct []) ∧ val "NonBearer" = .nil) ∨
      (val "Scheme" ≠ .str "bearer" ∧ val "BearerFormat" = .nil ∧ val "Bearer" = .nil ∧
        (val "NonBearer" = .nil ∨ val "NonBearer" = .struct [("Scheme", .nil)]))) :
    Good T N (.named "HTTPSecurityScheme") (structOf V30.sHTTPSecurityScheme val) :=
  (http30_both hT hB hN hn val hf hp hpk hs).1

end Verif
