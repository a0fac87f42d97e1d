import Verif.Lemmas.Load
import Verif.Spec.Load

/-! What was read can be written. -/

namespace Verif
open Codec Spec

variable {T : Table} {N : Nums} {Ok : String → String → Val → Prop} {P : List (String × Val) → Prop}

/-! ## Numbers and free-form values -/

theorem decodeAnyMembers_stable {M : List (String × Any)} (h : ∀ p ∈ M, decodeAny N p.2 = some p.2) :
    decodeAnyMembers N M = some M := by
  induction M with
  | nil => rfl
  | cons p M ih =>
    obtain ⟨k, x⟩ := p
    simp only [decodeAnyMembers]
    rw [h (k, x) List.mem_cons_self, ih (fun q hq => h q (List.mem_cons_of_mem _ hq))]

mutual
theorem decodeAny_stable (hN : NumsOk N) : ∀ {a b : Any}, decodeAny N a = some b → decodeAny N b = some b
  | .null, b, h => by simp only [decodeAny, Option.some.injEq] at h; rw [← h]; rfl
  | .bool x, b, h => by simp only [decodeAny, Option.some.injEq] at h; rw [← h]; rfl
  | .str x, b, h => by simp only [decodeAny, Option.some.injEq] at h; rw [← h]; rfl
  | .num l, b, h => by
    simp only [decodeAny] at h
    rw [Option.map_eq_some_iff] at h
    obtain ⟨l', hl, rfl⟩ := h
    simp only [decodeAny]
    rw [hN.f64 l l' hl]; rfl
  | .arr xs, b, h => by
    simp only [decodeAny] at h
    rw [Option.map_eq_some_iff] at h
    obtain ⟨l', hl, rfl⟩ := h
    simp only [decodeAny]
    rw [decodeAnys_stable hN hl]; rfl
  | .obj ms, b, h => by
    simp only [decodeAny] at h
    rw [Option.map_eq_some_iff] at h
    obtain ⟨l', hl, rfl⟩ := h
    simp only [decodeAny]
    rw [decodeAnyMembers_stable (M := lastWins l')]
    · simp only [Option.map_some, Option.some.injEq, Any.obj.injEq]
      exact lastWins_nodup (lastWins_wf l')
    · intro p hp
      exact decodeAnyMembers_values hN hl p (mem_lastWins hp)
theorem decodeAnys_stable (hN : NumsOk N) : ∀ {xs ys : List Any}, decodeAnys N xs = some ys → decodeAnys N ys = some ys
  | [], ys, h => by simp only [decodeAnys, Option.some.injEq] at h; rw [← h]; rfl
  | x :: xs, ys, h => by
    simp only [decodeAnys] at h
    split at h
    · rename_i y zs hy hz
      simp only [Option.some.injEq] at h
      rw [← h]
      simp only [decodeAnys]
      rw [decodeAny_stable hN hy, decodeAnys_stable hN hz]
    · cases h
theorem decodeAnyMembers_values (hN : NumsOk N) : ∀ {xs ys : List (String × Any)}, decodeAnyMembers N xs = some ys →
    ∀ p ∈ ys, decodeAny N p.2 = some p.2
  | [], ys, h => by simp only [decodeAnyMembers, Option.some.injEq] at h; rw [← h]; intro p hp; cases hp
  | (k, x) :: xs, ys, h => by
    simp only [decodeAnyMembers] at h
    split at h
    · rename_i y zs hy hz
      simp only [Option.some.injEq] at h
      rw [← h]
      intro p hp
      rcases List.mem_cons.1 hp with rfl | hp
      · exact decodeAny_stable hN hy
      · exact decodeAnyMembers_values hN hz p hp
    · cases h
end

theorem decodeAny_null {a b : Any} (h : decodeAny N a = some b) (ha : a ≠ .null) : b ≠ .null := by
  rintro rfl
  cases a with
  | null => exact ha rfl
  | bool x => simp [decodeAny] at h
  | str x => simp [decodeAny] at h
  | num l => simp [decodeAny] at h
  | arr xs => simp [decodeAny] at h
  | obj ms => simp [decodeAny] at h

/-! ## Types -/

/-- Types whose decoded values are considered. -/
def tyOk (bad : List String) : Ty → Bool
  | .named n => !bad.contains n
  | .ptr t => notPtr t && tyOk bad t
  | .slice t => tyOk bad t
  | .map t => tyOk bad t
  | _ => true

/-- A zero value that can be written and read back. -/
def zeroOk : Ty → Bool
  | .named _ => false
  | _ => true

/-- What is needed of the structs of a table. -/
def structOk (bad : List String) (s : Struct) : Bool :=
  s.fields.all (fun f => tyOk bad f.ty && (s.require.contains f.key || zeroOk f.ty)) &&
  s.patterns.all (fun q => tyOk bad q.ty) && s.oneOf.all (fun e => tyOk bad e.ty) &&
  (match s.additional with
    | some a => tyOk bad a.ty
    | none => true)

theorem structOk_iff {bad : List String} {s : Struct} (h : structOk bad s = true) :
    (∀ f ∈ s.fields, tyOk bad f.ty = true ∧ (f.key ∈ s.require ∨ zeroOk f.ty = true)) ∧
    (∀ q ∈ s.patterns, tyOk bad q.ty = true) ∧ (∀ e ∈ s.oneOf, tyOk bad e.ty = true) ∧
    ∀ a, s.additional = some a → tyOk bad a.ty = true := by
  simp only [structOk, Bool.and_eq_true, List.all_eq_true, Bool.or_eq_true, List.contains_iff_mem] at h
  refine ⟨h.1.1.1, h.1.1.2, h.1.2, ?_⟩
  intro a ha
  have := h.2
  rw [ha] at this
  exact this

/-- Values that were read from this JSON value can be written. -/
def Ind (T : Table) (N : Nums) (Ok : String → String → Val → Prop) (P : List (String × Val) → Prop) (bad : List String)
    (j : Any) : Prop :=
  ∀ ty v, tyOk bad ty = true → decode T N ty j = some v → Everywhere P v → Writable T N Ok ty v

/-! ## Parts of values -/

theorem Spec.Everywhere.list {vs : List Val} (h : Everywhere P (.list vs)) {x : Val} (hx : x ∈ vs) : Everywhere P x :=
  fun fs hp => h fs (.list hx hp)
theorem Spec.Everywhere.map {ms : List (String × Val)} (h : Everywhere P (.map ms)) {k : String} {x : Val} (hx : (k, x) ∈ ms) :
    Everywhere P x := fun fs hp => h fs (.map hx hp)
theorem Spec.Everywhere.struct {ms : List (String × Val)} (h : Everywhere P (.struct ms)) {k : String} {x : Val}
    (hx : (k, x) ∈ ms) : Everywhere P x := fun fs hp => h fs (.struct hx hp)
theorem Spec.Everywhere.self {ms : List (String × Val)} (h : Everywhere P (.struct ms)) : P ms := h ms (.self _)

theorem Spec.Everywhere.field {s : Struct} {val : String → Val} (h : Everywhere P (structOf s val)) {go : String}
    (hgo : go ∈ s.names) : Everywhere P (val go) :=
  Spec.Everywhere.struct h (k := go) (List.mem_map.2 ⟨go, hgo, rfl⟩)

/-! ## Fields and maps of structs -/

theorem loaded_null {s : Struct} {M : List (String × Any)} {f : Field} {rd : Val} (hb : Base s) (hf : f ∈ s.fields)
    (hno : ¬ExplicitNull s f (rememberNull s (M.map (memberOf T N)) (f.go, rd)).2) :
    (rememberNull s (M.map (memberOf T N)) (f.go, rd)).2 = rd := by
  unfold rememberNull at hno ⊢
  split
  · rename_i e
    split
    · rename_i hany
      exfalso
      simp only at e
      subst e
      simp only [hany, if_true] at hno
      apply hno
      rw [List.any_eq_true] at hany
      obtain ⟨n, hn, e⟩ := hany
      simp only [Bool.and_eq_true, beq_iff_eq] at e
      have := field_go_eq hb hf (hb.nulls n hn) e.1.symm
      refine ⟨?_, rfl⟩
      rw [this]
      exact hn
    · rfl
  · rfl

theorem zero_writable (hN : NumsOk N) {t : Ty} (h : zeroOk t = true) : Writable T N Ok t (zero T t) := by
  cases t with
  | any => exact .any rfl
  | bool => exact .bool _
  | str => exact .str _
  | int => exact .int hN.i64zero
  | float => exact .float hN.f64zero
  | named n => cases h
  | ptr t => exact .nilPtr t
  | slice t => exact .nilSlice t
  | map t => exact .nilMap t

theorem loaded_fields (hN : NumsOk N) {bad : List String} {s : Struct} (hb : Base s)
    (hs : ∀ f ∈ s.fields, tyOk bad f.ty = true ∧ (f.key ∈ s.require ∨ zeroOk f.ty = true)) {j : Any} {M : List (String × Any)}
    {val : String → Val} (L : Loaded T N s j M val) (hE : Everywhere P (structOf s val)) (ih : ∀ p ∈ M, Ind T N Ok P bad p.2) :
    ∀ f ∈ s.fields, ¬ExplicitNull s f (val f.go) → Writable T N Ok f.ty (val f.go) := by
  intro f hf hno
  obtain ⟨rd, hr, e⟩ := L.fields f hf
  rw [e] at hno
  have e' := e.trans (loaded_null hb hf hno)
  have hw := hE.field (field_name hf)
  rw [e'] at hw ⊢
  rcases hr with ⟨_, ⟨hz, rfl⟩ | ⟨M1, p, M2, hM, _, hd, _⟩⟩
  · rcases (hs f hf).2 with hk | hk
    · exfalso
      obtain ⟨p, hp, ek⟩ := List.mem_map.1 (L.require _ hk)
      exact hz p hp (by rw [ek]; exact hb.own f hf)
    · exact zero_writable hN hk
  · exact ih p (by rw [hM]; simp) f.ty rd (hs f hf).1 hd hw

theorem madeMap_writable {t : Ty} {es : List (String × Val)} (hnd : (es.map Prod.fst).Nodup)
    (h : ∀ k x, (k, x) ∈ es → Writable T N Ok t x) : Writable T N Ok (.map t) (madeMap es) := by
  cases es with
  | nil => exact .nilMap t
  | cons e es => exact .map hnd h

theorem madeMap_everywhere {es : List (String × Val)} (h : Everywhere P (madeMap es)) :
    ∀ k x, (k, x) ∈ es → Everywhere P x := by
  cases es with
  | nil => intro k x hx; cases hx
  | cons e es => exact fun k x hx => Spec.Everywhere.map h hx

theorem madeMap_keys {es : List (String × Val)} {k : String} (h : k ∈ keysOf (madeMap es)) : ∃ x, (k, x) ∈ es := by
  cases es with
  | nil => cases h
  | cons e es =>
    obtain ⟨p, hp, rfl⟩ := List.mem_map.1 h
    exact ⟨p.2, hp⟩

theorem loaded_patterns {bad : List String} {s : Struct} (hs : ∀ q ∈ s.patterns, tyOk bad q.ty = true) {j : Any}
    {M : List (String × Any)} {val : String → Val} (L : Loaded T N s j M val) (hE : Everywhere P (structOf s val))
    (ih : ∀ p ∈ M, Ind T N Ok P bad p.2) :
    ∀ q ∈ s.patterns, Writable T N Ok (.map q.ty) (val q.go) ∧ ∀ k ∈ keysOf (val q.go), q.pat.matches k = true := by
  intro q hq
  obtain ⟨es, e, ⟨hnd, _⟩, h⟩ := L.patterns q hq
  have hw := hE.field (pattern_name hq)
  rw [e] at hw ⊢
  refine ⟨madeMap_writable hnd ?_, ?_⟩
  · intro k x hx
    obtain ⟨_, a, ha, hd⟩ := h k x hx
    exact ih (k, a) ha q.ty x (hs q hq) hd (madeMap_everywhere hw k x hx)
  · intro k hk
    obtain ⟨x, hx⟩ := madeMap_keys hk
    exact (h k x hx).1

theorem loaded_additional {bad : List String} {s : Struct} (hs : ∀ a, s.additional = some a → tyOk bad a.ty = true) {j : Any}
    {M : List (String × Any)} {val : String → Val} (L : Loaded T N s j M val) (hE : Everywhere P (structOf s val))
    (ih : ∀ p ∈ M, Ind T N Ok P bad p.2) :
    ∀ a, s.additional = some a → Writable T N Ok (.map a.ty) (val a.go) ∧
      ∀ k ∈ keysOf (val a.go), ∀ q ∈ s.patterns, q.pat.matches k = false := by
  intro a ha
  obtain ⟨es, e, ⟨hnd, _⟩, h⟩ := L.additional a ha
  have hw := hE.field (additional_name ha)
  rw [e] at hw ⊢
  refine ⟨madeMap_writable hnd ?_, ?_⟩
  · intro k x hx
    obtain ⟨_, b, hb, hd⟩ := h k x hx
    exact ih (k, b) hb a.ty x (hs a ha) hd (madeMap_everywhere hw k x hx)
  · intro k hk
    obtain ⟨x, hx⟩ := madeMap_keys hk
    exact (h k x hx).1

/-- The values that were checked in lower case. -/
theorem loaded_lower {s : Struct} (hb : Base s)
    (hty : ∀ c ∈ s.lower, ∀ f ∈ s.fields, f.go = c.go → f.ty = .str) {j : Any} {M : List (String × Any)}
    {val : String → Val} (L : Loaded T N s j M val) :
    ∀ c ∈ s.lower, ∃ t, val c.go = .str t ∧ (goToLower t == c.value) = c.mustBe := by
  intro c hc
  obtain ⟨f, hf, e, _⟩ := hb.lower c hc
  obtain ⟨rd, hr, ev⟩ := L.fields f hf
  have hl := L.lower c hc f hf e rd hr
  have hstr : ∃ t, rd = .str t := by
    rcases hr with ⟨_, ⟨_, rfl⟩ | ⟨M1, p, M2, _, _, hd, _⟩⟩
    · rw [hty c hc f hf e]; exact ⟨"", rfl⟩
    · rw [hty c hc f hf e, decode_str] at hd
      split at hd
      · cases hd; exact ⟨_, rfl⟩
      · cases hd; exact ⟨_, rfl⟩
      · cases hd
  obtain ⟨t, rfl⟩ := hstr
  refine ⟨t, ?_, ?_⟩
  · rw [← e, ev]; rfl
  · simpa using hl

/-! ## The last value of a key -/

/-- In a strict struct only the exact key is for a field. -/
theorem strict_key {s : Struct} (hb : Base s) (hs : s.strict = true ∧ s.additional = none)
    (hk : s.known.all (fun k => match fieldOf s.fields k with
      | some f => f.key == k
      | none => true) = true) {j : Any} {M : List (String × Any)} {val : String → Val} (L : Loaded T N s j M val)
    {p : String × Any} (hp : p ∈ M) {f : Field} (hfo : fieldOf s.fields p.1 = some f) : p.1 = f.key := by
  by_cases hkept : kept s p.1 = true
  · obtain ⟨q, hq, hm⟩ := L.strict hs.2 hs.1 p hp hkept
    rw [hb.patFields q hq p.1 hm] at hfo
    cases hfo
  · simp only [kept, Bool.not_eq_true', Bool.not_eq_false, Bool.or_eq_true, List.contains_iff_mem, List.any_eq_true,
      beq_iff_eq, hb.notConsts, List.not_mem_nil, false_and, exists_false, or_false] at hkept
    rcases hkept with h | ⟨c, hc, e⟩
    · have := List.all_eq_true.1 hk p.1 h
      rw [hfo] at this
      exact (beq_iff_eq.1 this).symm
    · rw [← e, hb.consts c hc] at hfo
      cases hfo

/-- The field of a key has its last value. -/
theorem reads_last {fs : List Field} {M : List (String × Any)} {f : Field} {rd : Val} (hown : fieldOf fs f.key = some f)
    (hk : ∀ p ∈ M, fieldOf fs p.1 = some f → p.1 = f.key) (h : FieldReads T N fs M f rd) :
    (f.key ∉ M.map Prod.fst ∧ rd = zero T f.ty) ∨ ∃ a, lastValue M f.key = some a ∧ decode T N f.ty a = some rd := by
  rcases h with ⟨_, ⟨hz, rfl⟩ | ⟨M1, p, M2, rfl, hfo, hd, h2⟩⟩
  · left
    refine ⟨?_, rfl⟩
    intro hm
    obtain ⟨p, hp, e⟩ := List.mem_map.1 hm
    exact hz p hp (by rw [e]; exact hown)
  · right
    have e := hk p (by simp) hfo
    refine ⟨p.2, ?_, hd⟩
    have : p = (f.key, p.2) := by rw [← e]
    rw [this]
    apply lastValue_append
    intro p' hp' e'
    exact h2 p' hp' (by rw [e']; exact hown)

/-! ## The main induction -/

/-- The facts about a table. The types `bad` are not considered; the types `sp` are neither plain nor only a choice
between alternatives. -/
structure LoadFacts (T : Table) (N : Nums) (Ok : String → String → Val → Prop) (P : List (String × Val) → Prop)
    (bad sp : List String) : Prop where
  ranked : Ranked T
  nums : NumsOk N
  nonBearer : "NonBearer" ∈ bad
  base : ∀ n s, GoMap.get? T n = some (.struct s) → n ∉ bad → Base s
  structs : ∀ n s, GoMap.get? T n = some (.struct s) → n ∉ bad → n ∉ sp → structOk bad s = true
  kinds : ∀ n s, GoMap.get? T n = some (.struct s) → n ∉ bad → n ∉ sp → (s.embeds = [] ∧ s.oneOf = []) ∨
    (s = { oneOf := s.oneOf, parts := s.oneOf.map (fun h => .hidden h.go) } ∧ 2 ≤ s.oneOf.length ∧
      ∀ e ∈ s.oneOf, ∃ t, e.ty = .ptr t)
  lower : ∀ n s, GoMap.get? T n = some (.struct s) → ∀ c ∈ s.lower, ∀ f ∈ s.fields, f.go = c.go → f.ty = .str
  one : ∀ n s, GoMap.get? T n = some (.struct s) → n ∉ bad → n ∉ sp → ∀ val, P (s.names.map (fun go => (go, val go))) →
    ∀ a b, s.exactlyOne = some (a, b) → (Omitted s val a ∧ Written s val b) ∨ (Written s val a ∧ Omitted s val b)
  not : ∀ n s, GoMap.get? T n = some (.struct s) → n ∉ bad → n ∉ sp → ∀ val j M, Loaded T N s j M val →
    P (s.names.map (fun go => (go, val go))) →
    ∀ t ∈ s.nots, ∃ m sm k, t = .named m ∧ GoMap.get? T m = some (.struct sm) ∧ k ∈ sm.require ∧ Omitted s val k
  ok : ∀ n s, GoMap.get? T n = some (.struct s) → n ∉ bad → n ∉ sp → ∀ e ∈ s.oneOf, ∀ v,
    P (s.oneOf.map (fun h => (h.go, if h.go = e.go then v else .nil))) → v ≠ .nil → Ok n e.go v
  special : ∀ n s, GoMap.get? T n = some (.struct s) → n ∈ sp → ∀ j v, decode T N (.named n) j = some v →
    Everywhere P v → (∀ M, j = .obj M → ∀ p ∈ M, Ind T N Ok P bad p.2) →
    (∀ e ∈ s.oneOf, ∀ v, tyOk bad e.ty = true → decode T N e.ty j = some v → Everywhere P v → Writable T N Ok e.ty v) →
    Writable T N Ok (.named n) v

theorem decode_ne_nil (hT : Ranked T) {t : Ty} (ht : notPtr t = true) {j : Any} (hj : j ≠ .null) {v : Val}
    (h : decode T N t j = some v) : v ≠ .nil ∧ v ≠ .any .null := by
  cases t with
  | any =>
    rw [decode_any, Option.map_eq_some_iff] at h
    obtain ⟨a, ha, rfl⟩ := h
    exact ⟨(nomatch ·), fun e => decodeAny_null ha hj (Val.any.inj e)⟩
  | bool => rw [decode_bool] at h; split at h <;> cases h <;> exact ⟨(nomatch ·), (nomatch ·)⟩
  | str => rw [decode_str] at h; split at h <;> cases h <;> exact ⟨(nomatch ·), (nomatch ·)⟩
  | int =>
    rw [decode_int] at h
    split at h
    · rw [Option.map_eq_some_iff] at h; obtain ⟨a, ha, rfl⟩ := h; exact ⟨(nomatch ·), (nomatch ·)⟩
    · exact absurd rfl hj
    · cases h
  | float =>
    rw [decode_float] at h
    split at h
    · rw [Option.map_eq_some_iff] at h; obtain ⟨a, ha, rfl⟩ := h; exact ⟨(nomatch ·), (nomatch ·)⟩
    · exact absurd rfl hj
    · cases h
  | named n =>
    cases hg : GoMap.get? T n with
    | none => rw [decode_none hg] at h; cases h
    | some d =>
      cases d with
      | enum vs =>
        rw [decode_enum hg] at h
        split at h <;> (try split at h) <;> cases h <;> exact ⟨(nomatch ·), (nomatch ·)⟩
      | struct s =>
        obtain ⟨gs, rfl, _⟩ := decode_names hT hg h
        exact ⟨(nomatch ·), (nomatch ·)⟩
  | ptr t => cases ht
  | slice t =>
    rw [decode_slice] at h
    split at h
    · rw [Option.map_eq_some_iff] at h; obtain ⟨a, ha, rfl⟩ := h; exact ⟨(nomatch ·), (nomatch ·)⟩
    · exact absurd rfl hj
    · cases h
  | map t =>
    rw [decode_map] at h
    split at h
    · rw [Option.map_eq_some_iff] at h; obtain ⟨a, ha, rfl⟩ := h; exact ⟨(nomatch ·), (nomatch ·)⟩
    · exact absurd rfl hj
    · cases h

theorem load_step {bad sp : List String} (F : LoadFacts T N Ok P bad sp) {j : Any}
    (ihA : ∀ xs, j = .arr xs → ∀ x ∈ xs, Ind T N Ok P bad x)
    (ihO : ∀ M, j = .obj M → ∀ p ∈ M, Ind T N Ok P bad p.2) : ∀ r ty, rankedAt T r ty = true → tyOk bad ty = true →
    ∀ v, decode T N ty j = some v → Everywhere P v → Writable T N Ok ty v := by
  intro r
  induction r with
  | zero => intro ty h; simp [rankedAt] at h
  | succ r ihr =>
    intro ty hr hty v hd hE
    have hT := F.ranked
    cases ty with
    | any =>
      rw [decode_any, Option.map_eq_some_iff] at hd
      obtain ⟨a, ha, rfl⟩ := hd
      exact .any (decodeAny_stable F.nums ha)
    | bool => rw [decode_bool] at hd; split at hd <;> cases hd <;> exact .bool _
    | str => rw [decode_str] at hd; split at hd <;> cases hd <;> exact .str _
    | int =>
      rw [decode_int] at hd
      split at hd
      · rw [Option.map_eq_some_iff] at hd
        obtain ⟨a, ha, rfl⟩ := hd
        exact .int (F.nums.i64 _ _ ha)
      · cases hd; exact .int F.nums.i64zero
      · cases hd
    | float =>
      rw [decode_float] at hd
      split at hd
      · rw [Option.map_eq_some_iff] at hd
        obtain ⟨a, ha, rfl⟩ := hd
        exact .float (F.nums.f64 _ _ ha)
      · cases hd; exact .float F.nums.f64zero
      · cases hd
    | ptr t =>
      simp only [tyOk, Bool.and_eq_true] at hty
      by_cases hj : j = .null
      · subst hj
        rw [decode_ptr_null] at hd
        cases hd
        exact .nilPtr t
      · have hd' : decode T N t j = some v := by
          rw [decode_ptr hT hty.1] at hd
          cases j <;> first | exact hd | exact absurd rfl hj
        obtain ⟨h1, h2⟩ := decode_ne_nil hT hty.1 hj hd'
        exact .ptr hty.1 h1 h2 (ihr t (by simpa [rankedAt] using hr) hty.2 v hd' hE)
    | slice t =>
      rw [decode_slice] at hd
      split at hd
      · rename_i xs
        rw [Option.map_eq_some_iff] at hd
        obtain ⟨vs, hvs, rfl⟩ := hd
        refine .slice ?_
        intro x hx
        obtain ⟨y, hy, e⟩ := mapAll_from hvs x hx
        exact ihA xs rfl y hy t x hty e (hE.list hx)
      · cases hd; exact .nilSlice t
      · cases hd
    | map t =>
      rw [decode_map] at hd
      split at hd
      · rename_i ms
        rw [Option.map_eq_some_iff] at hd
        obtain ⟨es, hes, rfl⟩ := hd
        refine .map (lastWins_wf es) ?_
        intro k x hx
        obtain ⟨p, hp, e⟩ := mapAll_from hes _ (mem_lastWins hx)
        rw [Option.map_eq_some_iff] at e
        obtain ⟨w, hw, e⟩ := e
        cases e
        exact ihO ms rfl p hp t _ hty hw (hE.map hx)
      · cases hd; exact .nilMap t
      · cases hd
    | named n =>
      have hnb : n ∉ bad := by
        simpa [tyOk] using hty
      cases hg : GoMap.get? T n with
      | none => rw [decode_none hg] at hd; cases hd
      | some d =>
        cases d with
        | enum vs =>
          rw [decode_enum hg] at hd
          split at hd
          · split at hd
            · rename_i h; cases hd; exact .enum hg (List.contains_iff_mem.1 h)
            · cases hd
          · split at hd
            · rename_i h; cases hd; exact .enum hg (List.contains_iff_mem.1 h)
            · cases hd
          · cases hd
        | struct s =>
          have hrs : ∀ e ∈ s.oneOf, rankedAt T r e.ty = true := by
            rw [rankedAt_struct hg] at hr
            simp only [Bool.and_eq_true, List.all_eq_true] at hr
            exact hr.2
          by_cases hsp : n ∈ sp
          · exact F.special n s hg hsp j v hd hE ihO (fun e he v ht hd hE => ihr e.ty (hrs e he) ht v hd hE)
          · have hb := F.base n s hg hnb
            obtain ⟨M, val, rfl, L⟩ := loaded hT hg hb.names hb.decodes hd
            have hso := structOk_iff (F.structs n s hg hnb hsp)
            have ih : ∀ p ∈ M, Ind T N Ok P bad p.2 := by
              rcases L.members with e | ⟨_, e⟩
              · exact ihO M e
              · subst e; intro p hp; cases hp
            rcases F.kinds n s hg hnb hsp with hk | ⟨hk, hlen, hptr⟩
            · have hpat := loaded_patterns hso.2.1 L hE ih
              have hadd := loaded_additional hso.2.2.2 L hE ih
              exact .plain hg hk (fun e => hnb (e ▸ F.nonBearer)) val (loaded_fields F.nums hb hso.1 L hE ih)
                (fun q hq => (hpat q hq).1) (fun q hq => (hpat q hq).2) (fun a ha => (hadd a ha).1)
                (fun a ha => (hadd a ha).2) (F.one n s hg hnb hsp val hE.self)
                (loaded_lower hb (F.lower n s hg) L) (F.not n s hg hnb hsp val j M L hE.self)
            · rcases L.oneOf with e | ⟨e, he, v, hv, hoth, hval⟩
              · rw [e] at hlen; simp at hlen
              · have hnm : s.names = s.oneOf.map Hidden.go := by
                  rw [hk]; simp [Struct.names]
                have hst : structOf s val = .struct (s.oneOf.map (fun h => (h.go, if h.go = e.go then v else .nil))) := by
                  unfold structOf
                  rw [hnm, List.map_map]
                  congr 1
                  apply List.map_congr_left
                  intro h hh
                  simp only [Function.comp, hval h hh]
                have hje : j ≠ .null := by
                  rintro rfl
                  have hnd : (s.oneOf.map Hidden.go).Nodup := by
                    rw [← hnm]; exact hb.names
                  obtain ⟨e', he', hne⟩ : ∃ e' ∈ s.oneOf, e'.go ≠ e.go := by
                    match hm : s.oneOf, hlen with
                    | a :: b :: l, _ =>
                      rw [hm] at hnd
                      simp only [List.map_cons, List.nodup_cons, List.mem_cons, not_or] at hnd
                      by_cases ha : a.go = e.go
                      · exact ⟨b, by simp, fun hb => hnd.1.1 (ha.trans hb.symm)⟩
                      · exact ⟨a, by simp, ha⟩
                  obtain ⟨t', ht'⟩ := hptr e' he'
                  have := hoth e' he' hne
                  rw [ht', decode_ptr_null] at this
                  cases this
                obtain ⟨t, ht⟩ := hptr e he
                have hte := hso.2.2.1 e he
                have hvn : v ≠ .nil := by
                  rw [ht] at hv hte
                  simp only [tyOk, Bool.and_eq_true] at hte
                  rw [decode_ptr hT hte.1] at hv
                  have hv' : decode T N t j = some v := by
                    cases j <;> first | exact hv | exact absurd rfl hje
                  exact (decode_ne_nil hT hte.1 hje hv').1
                have hEv : Everywhere P v := by
                  rw [hst] at hE
                  refine hE.struct (k := e.go) (List.mem_map.2 ⟨e, he, ?_⟩)
                  simp
                have hw := ihr e.ty (hrs e he) hte v hv hEv
                have hP := hE.self (ms := s.names.map (fun go => (go, val go)))
                have hst' : s.names.map (fun go => (go, val go)) =
                    s.oneOf.map (fun h => (h.go, if h.go = e.go then v else .nil)) := Val.struct.inj hst
                rw [hst'] at hP
                rw [hst]
                rw [ht] at hw
                have he' : ⟨e.go, .ptr t⟩ ∈ s.oneOf := by rw [← ht]; exact he
                exact .union hg hk he' hvn hw (F.ok n s hg hnb hsp e he v hP hvn)

theorem rankedAt_ok (hT : Ranked T) {bad : List String} {ty : Ty} (h : tyOk bad ty = true) : rankedAt T 11 ty = true := by
  cases hp : notPtr ty with
  | true => exact rankedAt_mono (rankedAt_of_notPtr hT hp) (by decide)
  | false =>
    cases ty with
    | ptr t =>
      simp only [tyOk, Bool.and_eq_true] at h
      have := rankedAt_of_notPtr hT h.1
      rw [rankedAt]
      exact this
    | _ => cases hp

/-- What was read can be written. -/
theorem load {bad sp : List String} (F : LoadFacts T N Ok P bad sp) (j : Any) : Ind T N Ok P bad j := by
  intro ty v ht hd hE
  refine load_step F ?_ ?_ 11 ty (rankedAt_ok F.ranked ht) ht v hd hE
  · intro xs e x hx
    have : sizeOf x < sizeOf j := by
      have := List.sizeOf_lt_of_mem hx
      rw [e]; simp; omega
    exact load F x
  · intro M e p hp
    have : sizeOf p.2 < sizeOf j := by
      have := List.sizeOf_lt_of_mem hp
      obtain ⟨k, x⟩ := p
      simp only [Prod.mk.sizeOf_spec] at this
      rw [e]; simp; omega
    exact load F p.2
termination_by sizeOf j

end Verif
