import Verif.Lemmas.Distinct
import Verif.Lemmas.Order
import Verif.Lemmas.Again

/-! What is written is clear: when it is read, no object has two spellings of the name of a field. -/

namespace Verif
open Codec Spec

variable {T : Table} {N : Nums}

/-! ## Types that never lead to a struct, and values without parts -/

/-- No struct is read in a value of the type. -/
def flat (T : Table) : Ty → Bool
  | .named n => match GoMap.get? T n with
    | some (.struct _) => false
    | _ => true
  | .ptr t => flat T t
  | .slice t => flat T t
  | .map t => flat T t
  | _ => true

theorem readAs_flat {ty ty' : Ty} {j j' : Any} (h : ReadAs T ty j ty' j') (hf : flat T ty = true) : flat T ty' = true := by
  induction h with
  | self => exact hf
  | ptr _ ih => exact ih hf
  | elem _ _ ih => exact ih hf
  | entry _ _ ih => exact ih hf
  | alternative hs => simp [flat, hs] at hf
  | field hs => simp [flat, hs] at hf
  | pattern hs => simp [flat, hs] at hf
  | additional hs => simp [flat, hs] at hf

theorem flat_clear {ty : Ty} {j : Any} (hf : flat T ty = true) (hd : Distinct j) : ClearAs T ty j := by
  refine ⟨hd, fun n s ms hr hs => ?_⟩
  have := readAs_flat hr hf
  simp [flat, hs] at this

/-- A JSON value without parts. -/
def scalar : Any → Bool
  | .arr _ => false
  | .obj _ => false
  | _ => true

theorem readAs_scalar {ty ty' : Ty} {j j' : Any} (h : ReadAs T ty j ty' j') (hj : scalar j = true) : j' = j := by
  induction h with
  | self => rfl
  | ptr _ ih => exact ih hj
  | alternative _ _ _ ih => exact ih hj
  | _ => simp [scalar] at hj

theorem scalar_clear {ty : Ty} {j : Any} (hj : scalar j = true) : ClearAs T ty j := by
  refine ⟨by cases j <;> simp_all [scalar, Distinct], fun n s ms hr hs => ?_⟩
  have := readAs_scalar hr hj
  subst this
  simp [scalar] at hj

/-- Values of the type are written without parts. -/
def scalarTy (T : Table) : Ty → Bool
  | .named n => match GoMap.get? T n with
    | some (.enum _) => true
    | _ => false
  | .ptr t => scalarTy T t
  | .bool => true
  | .str => true
  | .int => true
  | .float => true
  | _ => false

theorem scalar_written {Ok : String → String → Val → Prop} {ty : Ty} {v : Val} (h : Writable T N Ok ty v)
    (hs : scalarTy T ty = true) : scalar (enc T ty v) = true := by
  induction h with
  | any => simp [scalarTy] at hs
  | bool b => rfl
  | str s => rfl
  | int h => rfl
  | float h => rfl
  | nilPtr t => rfl
  | ptr ht h1 h2 h ih =>
    unfold enc
    rw [encode_ptr T h1]
    exact ih hs
  | nilSlice | slice | nilMap | map => simp [scalarTy] at hs
  | @enum n values hn s h =>
    have hc : values.contains s = true := List.contains_iff_mem.2 h
    rw [enc_of (j := .str s) (by rw [encode_enum hn, if_pos hc])]
    rfl
  | plain hn => simp [scalarTy, hn] at hs
  | union hn => simp [scalarTy, hn] at hs
  | http hn => simp [scalarTy, hn] at hs
  | security hn => simp [scalarTy, hn] at hs
  | parameter hn => simp [scalarTy, hn] at hs

/-! ## Composing -/

theorem ptr_clear {t : Ty} {j : Any} (h : ClearAs T t j) : ClearAs T (.ptr t) j := by
  refine ⟨h.1, fun n s ms hr hs => ?_⟩
  cases hr with
  | ptr hr => exact h.2 n s ms hr hs

theorem slice_clear {t : Ty} {xs : List Any} (h : ∀ x ∈ xs, ClearAs T t x) : ClearAs T (.slice t) (.arr xs) := by
  refine ⟨distinctList_iff.2 fun x hx => (h x hx).1, fun n s ms hr hs => ?_⟩
  cases hr with
  | elem hx hr => exact (h _ hx).2 n s ms hr hs

theorem map_clear {t : Ty} {ms : List (String × Any)} (hd : (ms.map Prod.fst).Nodup) (h : ∀ p ∈ ms, ClearAs T t p.2) :
    ClearAs T (.map t) (.obj ms) := by
  refine ⟨⟨hd, distinctMembers_iff.2 fun p hp => (h p hp).1⟩, fun n s ms hr hs => ?_⟩
  cases hr with
  | entry hx hr => exact (h _ hx).2 n s ms hr hs

theorem named_clear {n : String} {s : Struct} {ms : List (String × Any)} (hn : GoMap.get? T n = some (.struct s))
    (hd : Distinct (.obj ms)) (ho : OneEach s.fields ms)
    (hf : ∀ k x f, (k, x) ∈ ms → fieldOf s.fields k = some f → ClearAs T f.ty x)
    (hp : ∀ k x, (k, x) ∈ ms → ∀ q ∈ s.patterns, q.pat.matches k = true → ClearAs T q.ty x)
    (ha : ∀ k x a, (k, x) ∈ ms → s.additional = some a → (∀ q ∈ s.patterns, q.pat.matches k = false) → ClearAs T a.ty x)
    (ht : ∀ t, (t ∈ s.nots ∨ ∃ e ∈ s.embeds ++ s.oneOf, e.ty = t) → ClearAs T t (.obj ms)) :
    ClearAs T (.named n) (.obj ms) := by
  refine ⟨hd, fun m sm os hr hs => ?_⟩
  cases hr with
  | self => rw [hn] at hs; cases hs; exact ho
  | alternative h1 h2 hr => rw [hn] at h1; cases h1; exact (ht _ h2).2 m sm os hr hs
  | field h1 hx h2 hr => rw [hn] at h1; cases h1; exact (hf _ _ _ hx h2).2 m sm os hr hs
  | pattern h1 hx hq hk hr => rw [hn] at h1; cases h1; exact (hp _ _ hx _ hq hk).2 m sm os hr hs
  | additional h1 hx h2 hk hr => rw [hn] at h1; cases h1; exact (ha _ _ _ hx h2 hk).2 m sm os hr hs

/-! ## The members of structs -/

def MapClear (T : Table) (ty : Ty) (v : Val) : Prop := ∀ p ∈ entries v, ClearAs T ty (enc T ty p.2)

theorem mapMembers_clear {ty : Ty} {v : Val} (h : MapClear T ty v) : ∀ p ∈ mapMembers T ty v, ClearAs T ty p.2 := by
  intro p hp
  unfold mapMembers at hp
  obtain ⟨x, hx, rfl⟩ := List.mem_map.1 hp
  exact h x hx

/-- Where the members of a written struct come from. -/
theorem mem_membersFor {s : Struct} {val : String → Val} {E : List (String × Any)} {p : String × Any}
    (hp : p ∈ membersFor T s val E) : (p ∈ constMembers s) ∨
      (∃ f ∈ s.fields, omitted f (val f.go) = false ∧ p = (f.key, enc T f.ty (val f.go))) ∨
      (∃ q ∈ s.patterns, p ∈ mapMembers T q.ty (val q.go)) ∨
      (∃ a, s.additional = some a ∧ p ∈ mapMembers T a.ty (val a.go)) ∨ p ∈ E := by
  unfold membersFor at hp
  simp only [List.mem_append] at hp
  rcases hp with (((hp | hp) | hp) | hp) | hp
  · exact .inl hp
  · obtain ⟨f, hf, ho, rfl⟩ := mem_fieldMembers.1 hp
    exact .inr (.inl ⟨f, hf, ho, rfl⟩)
  · obtain ⟨q, hq, hp⟩ := List.mem_flatMap.1 hp
    exact .inr (.inr (.inl ⟨q, hq, hp⟩))
  · unfold addMembers at hp
    split at hp
    · rename_i a ha
      exact .inr (.inr (.inr (.inl ⟨a, ha, hp⟩)))
    · cases hp
  · exact .inr (.inr (.inr (.inr hp)))

theorem const_scalar {s : Struct} {p : String × Any} (hp : p ∈ constMembers s) : scalar p.2 = true := by
  unfold constMembers at hp
  obtain ⟨c, hc, rfl⟩ := List.mem_map.1 hp
  simp only
  cases c.2 <;> rfl

theorem members_clear {n : String} {s : Struct} (hn : GoMap.get? T n = some (.struct s)) (hb : Base s)
    {val : String → Val} {E : List (String × Any)}
    (hD : Distinct (.obj (membersFor T s val E)))
    (hF : ∀ f ∈ s.fields, omitted f (val f.go) = false → ClearAs T f.ty (enc T f.ty (val f.go)))
    (hP : ∀ q ∈ s.patterns, MapClear T q.ty (val q.go))
    (hpk : ∀ q ∈ s.patterns, ∀ k ∈ keysOf (val q.go), q.pat.matches k = true)
    (hA : ∀ a, s.additional = some a → MapClear T a.ty (val a.go))
    (hak : ∀ a, s.additional = some a → ∀ k ∈ keysOf (val a.go), ∀ q ∈ s.patterns, q.pat.matches k = false)
    (hEk : ∀ p ∈ E, fieldOf s.fields p.1 = none ∧ s.additional = none ∧ ∀ q ∈ s.patterns, q.pat.matches p.1 = false)
    (ht : ∀ t, (t ∈ s.nots ∨ ∃ e ∈ s.embeds ++ s.oneOf, e.ty = t) → ClearAs T t (.obj (membersFor T s val E))) :
    ClearAs T (.named n) (.obj (membersFor T s val E)) := by
  -- a member of a field
  have own : ∀ k x f, (k, x) ∈ membersFor T s val E → fieldOf s.fields k = some f →
      k = f.key ∧ ClearAs T f.ty x := by
    intro k x f hm hf
    rcases mem_membersFor hm with hp | ⟨g, hg, ho, e⟩ | ⟨q, hq, hp⟩ | ⟨a, ha, hp⟩ | hp
    · unfold constMembers at hp
      obtain ⟨c, hc, e⟩ := List.mem_map.1 hp
      cases e
      rw [hb.consts c hc] at hf
      cases hf
    · cases e
      rw [hb.own g hg] at hf
      cases hf
      exact ⟨rfl, hF _ hg ho⟩
    · rw [hb.patFields q hq k (hpk q hq k (mem_mapMembers hp))] at hf
      cases hf
    · rw [(hb.additional (by rw [ha]; rfl)).1] at hf
      cases hf
    · rw [(hEk _ hp).1] at hf
      cases hf
  refine named_clear hn hD ?_ (fun k x f hm hf => (own k x f hm hf).2) ?_ ?_ ht
  · intro k₁ x₁ k₂ x₂ f m₁ m₂ e₁ e₂
    exact .inl <| (own _ _ _ m₁ e₁).1.trans (own _ _ _ m₂ e₂).1.symm
  · intro k x hm q hq hk
    rcases mem_membersFor hm with hp | ⟨g, hg, ho, e⟩ | ⟨q', hq', hp⟩ | ⟨a, ha, hp⟩ | hp
    · exact scalar_clear (const_scalar hp)
    · cases e
      have h1 := hb.patFields q hq _ hk
      rw [hb.own g hg] at h1
      cases h1
    · by_cases e : q' = q
      · subst e
        exact mapMembers_clear (hP _ hq) _ hp
      · have h1 := hb.patOther q' hq' q hq e k (hpk q' hq' k (mem_mapMembers hp))
        rw [hk] at h1
        cases h1
    · have h1 := hak a ha k (mem_mapMembers hp) q hq
      rw [hk] at h1
      cases h1
    · have h1 := (hEk _ hp).2.2 q hq
      rw [hk] at h1
      cases h1
  · intro k x a hm ha hk
    rcases mem_membersFor hm with hp | ⟨g, hg, ho, e⟩ | ⟨q', hq', hp⟩ | ⟨a', ha', hp⟩ | hp
    · exact scalar_clear (const_scalar hp)
    · rw [(hb.additional (by rw [ha]; rfl)).1] at hg
      cases hg
    · have h1 := hk q' hq'
      rw [hpk q' hq' k (mem_mapMembers hp)] at h1
      cases h1
    · rw [ha] at ha'
      cases ha'
      exact mapMembers_clear (hA _ ha) _ hp
    · rw [(hEk _ hp).2.1] at ha
      cases ha

/-! ## Objects that are read as other structs -/

theorem eq_of_map_nodup {α β : Type} {f : α → β} {l : List α} (h : (l.map f).Nodup) {a b : α} (ha : a ∈ l) (hb : b ∈ l)
    (e : f a = f b) : a = b := by
  induction l with
  | nil => cases ha
  | cons x l ih =>
    rw [List.map_cons, List.nodup_cons] at h
    rcases List.mem_cons.1 ha with ea | ha' <;> rcases List.mem_cons.1 hb with eb | hb'
    · rw [ea, eb]
    · exact absurd (ea ▸ e ▸ List.mem_map_of_mem hb') h.1
    · exact absurd (eb ▸ e ▸ List.mem_map_of_mem ha') h.1
    · exact ih h.2 ha' hb'

/-- What is known about the object a struct is written as. -/
structure Profile' where
  /-- the struct -/
  name : String
  /-- keys with the types of their values -/
  fixed : List (String × Ty)
  /-- there may be keys that match other patterns than `^x-` -/
  free : Bool
  /-- there may be any other key, with an object -/
  open' : Bool

/-- An object with that profile. -/
structure Fits' (T : Table) (p : Profile') (ms : List (String × Any)) : Prop where
  clear : ClearAs T (.named p.name) (.obj ms)
  keys : ∀ k x, (k, x) ∈ ms → (∃ F, (k, F) ∈ p.fixed ∧ ClearAs T F x ∧ (scalarTy T F = true → scalar x = true)) ∨
    Pat.x.matches k = true ∨ p.free = true ∨ (p.open' = true ∧ ∃ os, x = .obj os)

/-- The object can be read as a struct. -/
def readOk (T : Table) : Nat → Profile' → String → Bool
  | 0, _, _ => false
  | r + 1, p, b => p.name == b || (match GoMap.get? T b with
    | some (.struct s) => !p.free && decide ((p.fixed.map (fun q => foldKey q.1)).Nodup) &&
      s.fields.all (fun f => keyFree .x f.key) &&
      p.fixed.all (fun q => match fieldOf s.fields q.1 with
        | some f => q.2 == f.ty || scalarTy T q.2 || flat T f.ty
        | none => true) &&
      (!p.open' || (p.fixed == [] && s.fields.all (fun f => f.ty == .str || f.ty == .ptr .str))) &&
      s.patterns.all (fun q => flat T q.ty) &&
      (s.additional.isNone || (!p.open' && p.fixed.all (fun q => scalarTy T q.2) && s.patterns.any (fun q => q.pat == .x))) &&
      (s.nots ++ (s.embeds ++ s.oneOf).map Hidden.ty).all (fun t => match t with
        | .named m => readOk T r p m
        | .ptr (.named m) => readOk T r p m
        | t => flat T t)
    | _ => true)

theorem readOk_clear {p : Profile'} {ms : List (String × Any)} (h : Fits' T p ms) :
    ∀ (r : Nat) (b : String), readOk T r p b = true → ClearAs T (.named b) (.obj ms) := by
  intro r
  induction r with
  | zero => intro b hb; cases hb
  | succ r ih =>
    intro b hb
    simp only [readOk, Bool.or_eq_true, beq_iff_eq] at hb
    rcases hb with rfl | hb
    · exact h.clear
    · split at hb
      · rename_i s hs
        simp only [Bool.and_eq_true, Bool.not_eq_true', decide_eq_true_eq, List.all_eq_true, Bool.or_eq_true, beq_iff_eq,
          Option.isNone_iff_eq_none, List.any_eq_true] at hb
        obtain ⟨⟨⟨⟨⟨⟨⟨h1, h2⟩, h3⟩, h4⟩, h5⟩, h6⟩, h7⟩, h8⟩ := hb
        have hD := h.clear.1
        have hdm : ∀ k x, (k, x) ∈ ms → Distinct x := fun k x hx => distinctMembers_iff.1 hD.2 _ hx
        have hx : ∀ k, Pat.x.matches k = true → fieldOf s.fields k = none := by
          intro k hk
          cases hf : fieldOf s.fields k with
          | none => rfl
          | some f =>
            obtain ⟨a, b⟩ := fieldOf_mem' hf
            exact absurd b (keyFree_sound (h3 f a) hk)
        refine named_clear hs hD ?_ ?_ ?_ ?_ ?_
        · intro k₁ x₁ k₂ x₂ f m₁ m₂ e₁ e₂
          have hfold : foldKey k₁ = foldKey k₂ := (fieldOf_some e₁).2.trans (fieldOf_some e₂).2.symm
          have fixed : ∀ k x, (k, x) ∈ ms → fieldOf s.fields k = some f →
              (∃ F, (k, F) ∈ p.fixed) ∨ (p.open' = true ∧ ∃ os, x = .obj os) := by
            intro k x hm e
            rcases h.keys k x hm with ⟨F, hF, _⟩ | hk | hk | hk
            · exact .inl ⟨F, hF⟩
            · rw [hx k hk] at e; cases e
            · rw [h1] at hk; cases hk
            · exact .inr hk
          rcases fixed k₁ x₁ m₁ e₁ with ⟨F₁, hF₁⟩ | ⟨ho, hx₁⟩
          · rcases fixed k₂ x₂ m₂ e₂ with ⟨F₂, hF₂⟩ | ⟨ho, _⟩
            · exact .inl (congrArg Prod.fst (eq_of_map_nodup h2 hF₁ hF₂ hfold))
            · rcases h5 with h5 | h5
              · rw [ho] at h5; cases h5
              · rw [h5.1] at hF₁; cases hF₁
          · rcases h5 with h5 | h5
            · rw [ho] at h5; cases h5
            · exact .inr ⟨h5.2 f (fieldOf_some e₁).1, hx₁⟩
        · intro k x f hm hf
          rcases h.keys k x hm with ⟨F, hF, hc, hs⟩ | hk | hk | hk
          · have h4' := h4 _ hF
            simp only [hf, Bool.or_eq_true, beq_iff_eq] at h4'
            rcases h4' with (e | e) | e
            · exact e ▸ hc
            · exact scalar_clear (hs e)
            · exact flat_clear e hc.1
          · rw [hx k hk] at hf; cases hf
          · rw [h1] at hk; cases hk
          · rcases h5 with h5 | h5
            · rw [hk.1] at h5; cases h5
            · refine flat_clear ?_ (hdm k x hm)
              rcases h5.2 f (fieldOf_some hf).1 with e | e <;> rw [e] <;> rfl
        · intro k x hm q hq _
          exact flat_clear (h6 q hq) (hdm k x hm)
        · intro k x a hm ha hk
          rcases h7 with h7 | ⟨⟨h71, h72⟩, q, hq, e⟩
          · rw [h7] at ha; cases ha
          · rcases h.keys k x hm with ⟨F, hF, hc, hs⟩ | hk' | hk' | hk'
            · exact scalar_clear (hs (h72 _ hF))
            · have := hk q hq
              rw [e, hk'] at this
              cases this
            · rw [h1] at hk'; cases hk'
            · rw [h71] at hk'; cases hk'.1
        · intro t ht
          have hmem : t ∈ s.nots ++ (s.embeds ++ s.oneOf).map Hidden.ty := by
            rcases ht with ht | ⟨e, he, rfl⟩
            · exact List.mem_append_left _ ht
            · exact List.mem_append_right _ (List.mem_map_of_mem he)
          have h8' := h8 t hmem
          split at h8'
          · exact ih _ h8'
          · exact ptr_clear (ih _ h8')
          · exact flat_clear h8' hD
      · rename_i hs
        refine ⟨h.clear.1, fun n s os hr hn => ?_⟩
        cases hr with
        | self => exact absurd hn (hs _)
        | alternative h => exact absurd h (hs _)
        | field h => exact absurd h (hs _)
        | pattern h => exact absurd h (hs _)
        | additional h => exact absurd h (hs _)

/-- The members with fixed keys of a struct. -/
def fixedOf (s : Struct) : List (String × Ty) := s.consts.map (fun c => (c.1, .str)) ++ s.fields.map (fun f => (f.key, f.ty))

/-- The profile of a struct without alternatives. -/
def profileOf (n : String) (s : Struct) : Profile' where
  name := n
  fixed := fixedOf s
  free := s.patterns.any (fun q => q.pat != .x)
  open' := s.additional.isSome

/-- The profile of the security scheme of 3.1. -/
def profileWith (n : String) (s a : Struct) : Profile' where
  name := n
  fixed := fixedOf s ++ fixedOf a
  free := false
  open' := false

/-- One of several alternatives and nothing else. -/
def isUnion (s : Struct) : Bool :=
  s == { oneOf := s.oneOf, parts := s.oneOf.map (fun h => .hidden h.go) } && s.oneOf != []

/-- The profiles of the objects a struct is written as. -/
def profiles (T : Table) : Nat → String → Option (List Profile')
  | 0, _ => none
  | r + 1, n => match GoMap.get? T n with
    | some (.struct s) =>
      if isUnion s then
        (mapAll (fun h : Hidden => match h.ty with
          | .ptr (.named m) => profiles T r m
          | t => if scalarTy T t then some [] else none) s.oneOf).map List.flatten
      else if n == "SecurityScheme" then
        (mapAll (fun h : Hidden => match h.ty with
          | .ptr (.named m) => (match GoMap.get? T m with
            | some (.struct a) => some (profileWith n s a)
            | _ => none)
          | _ => none) s.oneOf)
      else some [profileOf n s]
    | _ => some []

/-- The alternatives, embedded parts and excluded types of a struct can be read. -/
def altsOk (T : Table) (p : Profile') (s : Struct) : Bool :=
  (s.nots ++ (s.embeds ++ s.oneOf).map Hidden.ty).all (fun t => match t with
    | .named m => readOk T 6 p m
    | .ptr (.named m) => readOk T 6 p m
    | t => flat T t)

theorem altsOk_clear {p : Profile'} {ms : List (String × Any)} (h : Fits' T p ms) {s : Struct} (hs : altsOk T p s = true) :
    ∀ t, (t ∈ s.nots ∨ ∃ e ∈ s.embeds ++ s.oneOf, e.ty = t) → ClearAs T t (.obj ms) := by
  intro t ht
  have hmem : t ∈ s.nots ++ (s.embeds ++ s.oneOf).map Hidden.ty := by
    rcases ht with ht | ⟨e, he, rfl⟩
    · exact List.mem_append_left _ ht
    · exact List.mem_append_right _ (List.mem_map_of_mem he)
  have h8' := List.all_eq_true.1 hs t hmem
  split at h8'
  · exact readOk_clear h _ _ h8'
  · exact ptr_clear (readOk_clear h _ _ h8')
  · exact flat_clear h8' h.clear.1

/-- The type is that of a struct. -/
def structTy (T : Table) : Ty → Bool
  | .named n => match GoMap.get? T n with
    | some (.struct _) => true
    | _ => false
  | _ => false

/-- Checks of a table. -/
def clearCheck (T : Table) : Bool :=
  (GoMap.get? T "").isNone &&
  T.all (fun e => match e.2 with
    | .struct s => (if isUnion s then
        (match profiles T 4 e.1 with
          | some l => l.all (fun p => readOk T 6 p e.1)
          | none => false)
      else e.1 == "SecurityScheme" || altsOk T (profileOf "" s) s) &&
      (e.1 != "SecurityScheme" || s.oneOf != []) &&
      (match s.additional with
        | some a => (a.ty == .named "PathItem" || a.ty == .named "PathItemOrReference") && (structTy T a.ty)
        | none => true)
    | _ => true)

/-- The same as a check of the security scheme of 3.1. -/
def securityCheck : Bool := V31.sSecurityScheme.oneOf.all (fun h => match h.ty with
  | .ptr (.named m) => (match GoMap.get? V31.table m with
    | some (.struct a) => altsOk V31.table (profileWith "" V31.sSecurityScheme a) V31.sSecurityScheme &&
      (!isUnion a && m != "SecurityScheme" && a.patterns == [] && a.additional == none)
    | _ => false)
  | _ => false)

theorem clear30 : clearCheck V30.table = true := by decide +kernel
theorem clear31 : clearCheck V31.table = true := by decide +kernel
theorem clearSecurity : securityCheck = true := by decide +kernel

/-- The name of no type. -/
theorem nameless_clear (hT : clearCheck T = true) {j : Any} (hd : Distinct j) : ClearAs T (.named "") j := by
  unfold clearCheck at hT
  simp only [Bool.and_eq_true, Option.isNone_iff_eq_none] at hT
  exact flat_clear (by simp [flat, hT.1]) hd

/-- A written struct has its profile, up to the claim about itself. -/
theorem members_fit {s : Struct} {val : String → Val} {name : String}
    (hc : ClearAs T (.named name) (.obj (membersFor T s val [])))
    (hF : ∀ f ∈ s.fields, omitted f (val f.go) = false → ClearAs T f.ty (enc T f.ty (val f.go)) ∧
      (scalarTy T f.ty = true → scalar (enc T f.ty (val f.go)) = true))
    (hpk : ∀ q ∈ s.patterns, ∀ k ∈ keysOf (val q.go), q.pat.matches k = true)
    (hO : ∀ a, s.additional = some a → ∀ p ∈ entries (val a.go), ∃ os, enc T a.ty p.2 = .obj os) :
    Fits' T (profileOf name s) (membersFor T s val []) := by
  refine ⟨hc, ?_⟩
  · intro k x hm
    rcases mem_membersFor hm with hp | ⟨g, hg, ho, e⟩ | ⟨q, hq, hp⟩ | ⟨a, ha, hp⟩ | hp
    · have := const_scalar hp
      unfold constMembers at hp
      obtain ⟨c, hc, e⟩ := List.mem_map.1 hp
      cases e
      exact .inl ⟨.str, List.mem_append_left _ (List.mem_map.2 ⟨c, hc, rfl⟩), scalar_clear this, fun _ => this⟩
    · cases e
      exact .inl ⟨g.ty, List.mem_append_right _ (List.mem_map.2 ⟨g, hg, rfl⟩), hF g hg ho⟩
    · have hk := hpk q hq k (mem_mapMembers hp)
      by_cases e : q.pat = .x
      · rw [e] at hk; exact .inr (.inl hk)
      · exact .inr (.inr (.inl (List.any_eq_true.2 ⟨q, hq, by simpa using e⟩)))
    · refine .inr (.inr (.inr ⟨by simp [profileOf, ha], ?_⟩))
      unfold mapMembers at hp
      obtain ⟨y, hy, e⟩ := List.mem_map.1 hp
      cases e
      exact hO a ha y hy
    · cases hp

/-- What is proved of a written value. -/
structure WrittenClear (T : Table) (ty : Ty) (v : Val) : Prop where
  clear : ClearAs T ty (enc T ty v)
  profile : ∀ a, (ty = .named a ∨ ty = .ptr (.named a)) → scalar (enc T ty v) = true ∨ ∀ r l, profiles T r a = some l →
    ∃ ms, enc T ty v = .obj ms ∧ ∃ p ∈ l, Fits' T p ms

theorem writtenClear_of {ty : Ty} {v : Val} (h : ClearAs T ty (enc T ty v)) (hn : ∀ a, ty ≠ .named a ∧ ty ≠ .ptr (.named a)) :
    WrittenClear T ty v :=
  ⟨h, fun a ha => by rcases ha with ha | ha; exact absurd ha (hn a).1; exact absurd ha (hn a).2⟩

theorem writtenClear_scalar {ty : Ty} {v : Val} (h : scalar (enc T ty v) = true) : WrittenClear T ty v :=
  ⟨scalar_clear h, fun _ _ => .inl h⟩

theorem mapClear_of {ty : Ty} {v : Val} (hg : MapGood T N ty v) (hd : ClearAs T (.map ty) (enc T (.map ty) v)) : MapClear T ty v := by
  rcases hg with rfl | ⟨es, rfl, h1, h2⟩
  · exact fun _ hp => nomatch hp
  · intro p hp
    have he : encode T (.map ty) (.map es) = some (.obj (es.map (fun p => (p.1, enc T ty p.2)))) := by
      rw [encode_map, mapAll_some_of (g := fun p => (p.1, enc T ty p.2))]
      · rfl
      · intro p hp
        rw [enc_some (h2 p hp).writes]
        rfl
    rw [enc_of he] at hd
    exact clearAs_entry hd (List.mem_map.2 ⟨p, hp, rfl⟩)

theorem mapAll_found {α β : Type} {f : α → Option β} {xs : List α} {ys : List β} (h : mapAll f xs = some ys) {x : α}
    (hx : x ∈ xs) : ∃ y ∈ ys, f x = some y := by
  induction xs generalizing ys with
  | nil => cases hx
  | cons a xs ih =>
    simp only [mapAll] at h
    split at h
    · rename_i y zs hy hz
      cases h
      rcases List.mem_cons.1 hx with rfl | hx
      · exact ⟨y, List.mem_cons_self, hy⟩
      · obtain ⟨z, hz, e⟩ := ih hz hx
        exact ⟨z, List.mem_cons_of_mem _ hz, e⟩
    · cases h

theorem clearCheck_struct (hT : clearCheck T = true) {n : String} {s : Struct} (hn : GoMap.get? T n = some (.struct s)) :
    (if isUnion s then
        (match profiles T 4 n with
          | some l => l.all (fun p => readOk T 6 p n)
          | none => false)
      else n == "SecurityScheme" || altsOk T (profileOf "" s) s) = true := by
  unfold clearCheck at hT
  simp only [Bool.and_eq_true, List.all_eq_true] at hT
  have hs := hT.2 _ (GoMap.mem_of_get? hn)
  simp only [Bool.and_eq_true] at hs
  exact hs.1.1

theorem clearCheck_security (hT : clearCheck T = true) {n : String} {s : Struct} (hn : GoMap.get? T n = some (.struct s))
    (ho : s.oneOf = []) : n ≠ "SecurityScheme" := by
  rintro rfl
  unfold clearCheck at hT
  simp only [Bool.and_eq_true, List.all_eq_true] at hT
  have hs := hT.2 _ (GoMap.mem_of_get? hn)
  simp [ho] at hs

/-- The profiles of a struct that is not a union. -/
theorem profiles_own {n : String} {s : Struct} (hn : GoMap.get? T n = some (.struct s))
    (hu : isUnion s = false)
    (hS : n ≠ "SecurityScheme") {r : Nat} {l : List Profile'} (h : profiles T r n = some l) : profileOf n s ∈ l := by
  cases r with
  | zero => cases h
  | succ r =>
    simp only [profiles, hn, hu, Bool.false_eq_true, if_false, beq_iff_eq, hS, Option.some.injEq] at h
    rw [← h]
    exact List.mem_singleton.2 rfl

/-- A written struct without alternatives that hold something is clear. -/
theorem own_clear (hT : clearCheck T = true) {n : String} {s : Struct} (hn : GoMap.get? T n = some (.struct s)) (hb : Base s)
    (hu : isUnion s = false)
    (hS : n ≠ "SecurityScheme") {val : String → Val} {v : Val} (he : enc T (.named n) v = .obj (membersFor T s val []))
    (hD : Distinct (enc T (.named n) v))
    (hF : ∀ f ∈ s.fields, omitted f (val f.go) = false → ClearAs T f.ty (enc T f.ty (val f.go)) ∧
      (scalarTy T f.ty = true → scalar (enc T f.ty (val f.go)) = true))
    (hP : ∀ q ∈ s.patterns, MapClear T q.ty (val q.go))
    (hpk : ∀ q ∈ s.patterns, ∀ k ∈ keysOf (val q.go), q.pat.matches k = true)
    (hA : ∀ a, s.additional = some a → MapClear T a.ty (val a.go))
    (hak : ∀ a, s.additional = some a → ∀ k ∈ keysOf (val a.go), ∀ q ∈ s.patterns, q.pat.matches k = false)
    (hO : ∀ a, s.additional = some a → ∀ p ∈ entries (val a.go), ∃ os, enc T a.ty p.2 = .obj os) :
    WrittenClear T (.named n) v := by
  rw [he] at hD
  have hC : ClearAs T (.named n) (.obj (membersFor T s val [])) := by
    refine members_clear hn hb hD (fun f hf ho => (hF f hf ho).1) hP hpk hA hak (by intro p hp; cases hp) ?_
    have h := clearCheck_struct hT hn
    rw [hu] at h
    simp only [Bool.false_eq_true, if_false, Bool.or_eq_true, beq_iff_eq, hS, false_or] at h
    exact altsOk_clear (members_fit (nameless_clear hT hD) hF hpk hO) h
  refine ⟨he ▸ hC, fun a ha => .inr fun r l hl => ⟨_, he, profileOf n s, ?_, members_fit hC hF hpk hO⟩⟩
  rcases ha with ha | ha <;> cases ha
  exact profiles_own hn hu hS hl

theorem clearCheck_additional (hT : clearCheck T = true) {n : String} {s : Struct} (hn : GoMap.get? T n = some (.struct s))
    {a : Hidden} (ha : s.additional = some a) : ∃ m t, a.ty = .named m ∧ (m = "PathItem" ∨ m = "PathItemOrReference") ∧
      GoMap.get? T m = some (.struct t) := by
  unfold clearCheck at hT
  simp only [Bool.and_eq_true, List.all_eq_true] at hT
  have hs := hT.2 _ (GoMap.mem_of_get? hn)
  simp only [Bool.and_eq_true, ha, Bool.or_eq_true, beq_iff_eq] at hs
  obtain ⟨_, h1, h2⟩ := hs
  obtain ⟨m, hm, hm'⟩ : ∃ m, a.ty = .named m ∧ (m = "PathItem" ∨ m = "PathItemOrReference") := by
    rcases h1 with e | e
    · exact ⟨_, e, .inl rfl⟩
    · exact ⟨_, e, .inr rfl⟩
  rw [hm] at h2
  simp only [structTy] at h2
  split at h2
  · rename_i t ht
    exact ⟨m, t, hm, hm', ht⟩
  · cases h2

/-- A plain struct and an alternative are written as objects. -/
theorem writable_object {Ok : String → String → Val → Prop} (F : Facts T N Ok) {m : String}
    (hm : m = "PathItem" ∨ m = "PathItemOrReference") {v : Val} (h : Writable T N Ok (.named m) v)
    (hs : ∃ s, GoMap.get? T m = some (.struct s)) : ∃ os, enc T (.named m) v = .obj os := by
  have hn' : ∀ k : String, k = "SchemaAdditionalProperties" ∨ k = "HTTPSecurityScheme" ∨ k = "SecurityScheme" ∨ k = "Parameter" →
      m ≠ k := by
    rintro k (rfl | rfl | rfl | rfl) <;> rcases hm with rfl | rfl <;> decide
  generalize hty : Ty.named m = ty at h
  cases h with
  | enum hn =>
    cases hty
    obtain ⟨s, hs⟩ := hs
    rw [hn] at hs
    cases hs
  | @plain n s hn hs hb val hf hp hpk ha hak hone hlow hnot =>
    have P := F.plain n s hn hs hb
    have V : PlainVal T N s val := by
      refine ⟨?_, ?_, hpk, ?_, hak, hone, hlow⟩
      · intro f hff
        by_cases hx : ExplicitNull s f (val f.go)
        · exact .inl hx
        · exact .inr (writable_good F (hf f hff hx)).rt
      · intro q hq; exact (writable_good F (hp q hq)).deep
      · intro a haa; exact (writable_good F (ha a haa)).deep
    exact ⟨_, enc_of (encode_plainVal hn P V)⟩
  | @union n s hn hs go t v ho hv h hok =>
    cases hty
    obtain ⟨h1, _, _, h2⟩ := F.union _ s hn hs (List.ne_nil_of_mem ho)
    have hg := writable_good F h
    obtain ⟨⟨j, w, he, hd, hsame⟩, hdeep, hnull⟩ := id hg
    have hj : j ≠ .null := by
      rintro rfl
      rcases hnull he with e | e
      · exact hv e
      · rcases hdeep with e' | e'
        · exact hv e'
        · exact e'.2.1 e
    rcases (h2 go t v ho hv hg hok j he).2 with e | ⟨M, rfl, _⟩
    · exact absurd e (hn' _ (.inl rfl))
    · exact ⟨M, enc_of (encode_union hn hs h1 ho he hj)⟩
  | http => cases hty; exact absurd rfl (hn' _ (.inr (.inl rfl)))
  | security => cases hty; exact absurd rfl (hn' _ (.inr (.inr (.inl rfl))))
  | parameter => cases hty; exact absurd rfl (hn' _ (.inr (.inr (.inr rfl))))
  | _ => cases hty

theorem writable_clear {Ok : String → String → Val → Prop} (F : Facts T N Ok) (hT : clearCheck T = true)
    (hS : GoMap.get? T "SecurityScheme" = some (.struct V31.sSecurityScheme) → T = V31.table) {ty : Ty} {v : Val}
    (h : Writable T N Ok ty v) : Everywhere noDerived v → WrittenClear T ty v := by
  induction h with
  | any h =>
    intro hd
    exact writtenClear_of (flat_clear rfl (writable_distinct F hS (.any h) hd)) (fun _ => ⟨nofun, nofun⟩)
  | bool b => intro _; exact writtenClear_scalar rfl
  | str s => intro _; exact writtenClear_scalar rfl
  | int h => intro _; exact writtenClear_scalar rfl
  | float h => intro _; exact writtenClear_scalar rfl
  | nilPtr t => intro _; exact writtenClear_scalar rfl
  | @ptr t v ht h1 h2 h ih =>
    intro hE
    have e : enc T (.ptr t) v = enc T t v := by unfold enc; rw [encode_ptr T h1]
    have := ih hE
    refine ⟨e ▸ ptr_clear this.clear, fun a ha => ?_⟩
    rw [e]
    rcases ha with ha | ha <;> cases ha
    exact this.profile a (.inl rfl)
  | nilSlice t => intro _; exact writtenClear_scalar rfl
  | @slice t vs h ih =>
    intro hE
    have he : encode T (.slice t) (.list vs) = some (.arr (vs.map (enc T t))) := by
      rw [encode_slice, mapAll_some_of (g := enc T t)]
      · rfl
      · intro x hx; exact enc_some (writable_good F (h x hx)).rt.writes
    refine writtenClear_of ?_ (fun _ => ⟨nofun, nofun⟩)
    rw [enc_of he]
    refine slice_clear fun x hx => ?_
    obtain ⟨y, hy, rfl⟩ := List.mem_map.1 hx
    exact (ih y hy (Spec.Everywhere.list hE hy)).clear
  | nilMap t => intro _; exact writtenClear_scalar rfl
  | @map t ms hk h ih =>
    intro hE
    have he : encode T (.map t) (.map ms) = some (.obj (ms.map (fun p => (p.1, enc T t p.2)))) := by
      rw [encode_map, mapAll_some_of (g := fun p => (p.1, enc T t p.2))]
      · rfl
      · intro p hp
        rw [enc_some (writable_good F (h p.1 p.2 hp)).rt.writes]
        rfl
    refine writtenClear_of ?_ (fun _ => ⟨nofun, nofun⟩)
    rw [enc_of he]
    refine map_clear (by simpa [Function.comp_def] using hk) fun p hp => ?_
    obtain ⟨x, hx, rfl⟩ := List.mem_map.1 hp
    exact (ih x.1 x.2 hx (Spec.Everywhere.map hE hx)).clear
  | @enum n values hn s h =>
    intro _
    refine writtenClear_scalar (scalar_written (.enum (N := N) (Ok := Ok) hn h) ?_)
    simp [scalarTy, hn]
  | @plain n s hn hs hb val hf hp hpk ha hak hone hlow hnot ihf ihp iha =>
    intro hE
    have P := F.plain n s hn hs hb
    have V : PlainVal T N s val := by
      refine ⟨?_, ?_, hpk, ?_, hak, hone, hlow⟩
      · intro f hff
        by_cases hx : ExplicitNull s f (val f.go)
        · exact .inl hx
        · exact .inr (writable_good F (hf f hff hx)).rt
      · intro q hq; exact (writable_good F (hp q hq)).deep
      · intro a haa; exact (writable_good F (ha a haa)).deep
    have hD := writable_distinct F hS (.plain hn hs hb val hf hp hpk ha hak hone hlow hnot) hE
    refine own_clear hT hn P.toBase (by simp [isUnion, hs.2]) (clearCheck_security hT hn hs.2) (enc_of (encode_plainVal hn P V)) hD ?_ ?_ hpk ?_ hak
      ?_
    · intro f hff _
      by_cases hx : ExplicitNull s f (val f.go)
      · obtain ⟨h1, h2⟩ := hx
        rw [nulls_field P.toBase hff h1 rfl, h2]
        exact ⟨flat_clear rfl trivial, fun _ => rfl⟩
      · exact ⟨(ihf f hff hx (Spec.Everywhere.field hE (field_name hff))).clear,
          scalar_written (hf f hff hx)⟩
    · intro q hq
      exact mapClear_of (V.patterns q hq) (ihp q hq (Spec.Everywhere.field hE (pattern_name hq))).clear
    · intro a haa
      exact mapClear_of (V.add a haa) (iha a haa (Spec.Everywhere.field hE (additional_name haa))).clear
    · intro a haa p hp
      obtain ⟨m, t, hty, hm, ht⟩ := clearCheck_additional hT hn haa
      have haw := ha a haa
      rw [hty] at haw ⊢
      generalize val a.go = w at haw hp
      cases haw with
      | nilMap => cases hp
      | map hk hh => exact writable_object F hm (hh p.1 p.2 hp) ⟨t, ht⟩
  | @union n s hn hs go t v ho hv h hok ih =>
    intro hE
    obtain ⟨h1, _, _, _⟩ := F.union n s hn hs (List.ne_nil_of_mem ho)
    obtain ⟨⟨j, w, he, hd, hsame⟩, hdeep, hnull⟩ := writable_good F h
    have hj : j ≠ .null := by
      rintro rfl
      rcases hnull he with e | e
      · exact hv e
      · rcases hdeep with e' | e'
        · exact hv e'
        · exact e'.2.1 e
    have e : enc T (.named n) (.struct (s.oneOf.map (fun h => (h.go, if h.go = go then v else .nil)))) = enc T (.ptr t) v := by
      rw [enc_of (encode_union hn hs h1 ho he hj), ← enc_of he]
    have hm : (go, v) ∈ s.oneOf.map (fun h => (h.go, if h.go = go then v else .nil)) := List.mem_map.2 ⟨_, ho, by simp⟩
    have hw := ih (Spec.Everywhere.struct hE (k := go) hm)
    have hu : isUnion s = true := by
      simp only [isUnion, Bool.and_eq_true, beq_iff_eq, bne_iff_ne, ne_eq]
      exact ⟨hs, List.ne_nil_of_mem ho⟩
    have hp : scalar (enc T (.ptr t) v) = true ∨ ∀ r l, profiles T r n = some l →
        ∃ ms, enc T (.ptr t) v = .obj ms ∧ ∃ p ∈ l, Fits' T p ms := by
      by_cases ht : ∃ m, t = .named m
      · obtain ⟨m, rfl⟩ := ht
        refine (hw.profile m (.inr rfl)).imp id fun hp r l hl => ?_
        cases r with
        | zero => cases hl
        | succ r =>
          simp only [profiles, hn, hu, if_true, Option.map_eq_some_iff] at hl
          obtain ⟨ls, hls, rfl⟩ := hl
          obtain ⟨l', hl', e⟩ := mapAll_found hls ho
          obtain ⟨ms, e', p, hp', hfit⟩ := hp r l' e
          exact ⟨ms, e', p, List.mem_flatten.2 ⟨l', hl', hp'⟩, hfit⟩
      · by_cases hsc : scalarTy T (.ptr t) = true
        · exact .inl (scalar_written h hsc)
        · refine .inr fun r l hl => ?_
          cases r with
          | zero => cases hl
          | succ r =>
            simp only [profiles, hn, hu, if_true, Option.map_eq_some_iff] at hl
            obtain ⟨ls, hls, rfl⟩ := hl
            obtain ⟨l', hl', e⟩ := mapAll_found hls ho
            split at e
            · rename_i m hm
              cases hm
              exact absurd ⟨m, rfl⟩ ht
            · rw [if_neg hsc] at e
              cases e
    have hc := clearCheck_struct hT hn
    rw [if_pos hu] at hc
    refine ⟨?_, fun a ha => ?_⟩
    · rw [e]
      rcases hp with hp | hp
      · exact scalar_clear hp
      · split at hc
        · rename_i l hl
          obtain ⟨ms, e', p, hpl, hfit⟩ := hp _ _ hl
          rw [e']
          exact readOk_clear hfit _ _ (List.all_eq_true.1 hc p hpl)
        · cases hc
    · rw [e]
      rcases ha with ha | ha <;> cases ha
      exact hp
  | http hn val hf hp hpk hs ihf ihp =>
    intro hE
    have hb : Base V30.sHTTPSecurityScheme := base_of_check (by decide +kernel)
    have hP : ∀ q ∈ V30.sHTTPSecurityScheme.patterns, MapGood T N q.ty (val q.go) := patterns_x rfl (writable_good F hp).deep
    have hD := writable_distinct F hS (.http hn val hf hp hpk hs) hE
    refine own_clear hT hn hb (by decide +kernel) (by decide) (enc_of (encode_nil_parts hn hb (X := ["Bearer", "NonBearer"]) rfl rfl
      (fun f hff => .inr (writable_good F (hf f hff)).rt) hP ?_)) hD ?_ ?_ (patterns_x rfl fun k hk => x_matches.2 (hpk k hk))
      (by intro a ha; cases ha) (by intro a ha; cases ha) (by intro a ha; cases ha)
    · intro go hgo
      simp only [List.mem_cons, List.not_mem_nil, or_false] at hgo
      rcases hgo with rfl | rfl
      · exact ⟨_, rfl, by decide, derived_nil hE (by decide) (by decide)⟩
      · exact ⟨_, rfl, by decide, derived_nil hE (by decide) (by decide)⟩
    · intro f hff _
      exact ⟨(ihf f hff (Spec.Everywhere.field hE (field_name hff))).clear,
        scalar_written (hf f hff)⟩
    · exact patterns_x rfl (mapClear_of (writable_good F hp).deep (ihp (Spec.Everywhere.field hE (by decide))).clear)
  | @security hn val hf hp hpk go t ho hv h hothers ihf ihp ih =>
    intro hE
    have := hS hn
    subst this
    have hb : Base V31.sSecurityScheme := base_of_check (by decide +kernel)
    obtain ⟨E, h1, h2, h3⟩ := security31_written hn val (fun f hff => writable_good F (hf f hff)) (writable_good F hp) go t ho hv
      (writable_good F h) hothers
    have hD := writable_distinct F hS (.security hn val hf hp hpk ho hv h hothers) hE
    have hF : ∀ f ∈ V31.sSecurityScheme.fields, ClearAs V31.table f.ty (enc V31.table f.ty (val f.go)) ∧
        (scalarTy V31.table f.ty = true → scalar (enc V31.table f.ty (val f.go)) = true) := fun f hff =>
      ⟨(ihf f hff (Spec.Everywhere.field hE (field_name hff))).clear,
        scalar_written (hf f hff)⟩
    have hpk' : ∀ q ∈ V31.sSecurityScheme.patterns, ∀ k ∈ keysOf (val q.go), q.pat.matches k = true :=
      patterns_x rfl fun k hk => x_matches.2 (hpk k hk)
    have hw := ih (Spec.Everywhere.field hE (oneOf_name ho))
    have hEk : ∀ p ∈ E, fieldOf V31.sSecurityScheme.fields p.1 = none ∧ V31.sSecurityScheme.additional = none ∧
        ∀ q ∈ V31.sSecurityScheme.patterns, q.pat.matches p.1 = false := fun p hp =>
      ⟨(h2 p hp).1, rfl, patterns_x (P := fun q => q.pat.matches p.1 = false) rfl (h2 p hp).2⟩
    rw [enc_of h3] at hD
    -- the alternative
    have hsec := clearSecurity
    unfold securityCheck at hsec
    have hsec := List.all_eq_true.1 hsec _ ho
    simp only at hsec
    split at hsec
    · rename_i m hm
      cases hm
      split at hsec
      · rename_i a ha
        simp only [Bool.and_eq_true, Bool.not_eq_true', bne_iff_ne, ne_eq, beq_iff_eq] at hsec
        obtain ⟨hsec, ⟨⟨c1, c2⟩, c3⟩, c4⟩ := hsec
        have hEfit : ∃ p, p.fixed = fixedOf a ∧ p.free = false ∧ p.open' = false ∧ Fits' V31.table p E := by
          have hpr : profiles V31.table 1 m = some [profileOf m a] := by
            simp only [profiles, ha, c1, c2, Bool.false_eq_true, if_false, beq_iff_eq]
          rcases hw.profile m (.inr rfl) with h | h
          · rw [enc_of h1] at h; cases h
          · obtain ⟨ms, e, p, hp, hfit⟩ := h _ _ hpr
            rw [enc_of h1] at e
            cases e
            rw [List.mem_singleton] at hp
            subst hp
            exact ⟨_, rfl, by simp [profileOf, c3], by simp [profileOf, c4], hfit⟩
        have hfit : ∀ name, ClearAs V31.table (.named name) (.obj (membersFor V31.table V31.sSecurityScheme val E)) →
            Fits' V31.table (profileWith name V31.sSecurityScheme a) (membersFor V31.table V31.sSecurityScheme val E) := by
          intro name hc
          refine ⟨hc, ?_⟩
          intro k x hm
          rcases mem_membersFor hm with hp | ⟨g, hg, ho, e⟩ | ⟨q, hq, hp⟩ | ⟨a, ha, hp⟩ | hp
          · cases hp
          · cases e
            exact .inl ⟨g.ty, List.mem_append_left _ (List.mem_append_right _ (List.mem_map.2 ⟨g, hg, rfl⟩)), hF g hg⟩
          · have hk := hpk' q hq k (mem_mapMembers hp)
            exact .inr (.inl (patterns_x (P := fun q => q.pat.matches k = true → Pat.x.matches k = true) rfl id q hq hk))
          · cases ha
          · obtain ⟨p, e1, e2, e3, hp'⟩ := hEfit
            rcases hp'.keys k x hp with ⟨G, hG, hG'⟩ | hk | hk | hk
            · exact .inl ⟨G, List.mem_append_right _ (e1 ▸ hG), hG'⟩
            · exact .inr (.inl hk)
            · rw [e2] at hk; cases hk
            · rw [e3] at hk; cases hk.1
        have hC : ClearAs V31.table (.named "SecurityScheme") (.obj (membersFor V31.table V31.sSecurityScheme val E)) := by
          refine members_clear hn hb hD (fun f hff _ => (hF f hff).1) ?_ hpk' (by intro a ha; cases ha) (by intro a ha; cases ha) hEk ?_
          · exact patterns_x rfl (mapClear_of (writable_good F hp).deep (ihp (Spec.Everywhere.field hE (by decide))).clear)
          · exact altsOk_clear (hfit "" (nameless_clear hT hD)) hsec
        refine ⟨enc_of h3 ▸ hC, fun b hb => .inr fun r l hl => ⟨_, enc_of h3, _, ?_, hfit _ hC⟩⟩
        rcases hb with hb | hb <;> cases hb
        cases r with
        | zero => cases hl
        | succ r =>
          have hu : isUnion V31.sSecurityScheme = false := by decide +kernel
          simp only [profiles, hn, hu, Bool.false_eq_true, if_false, beq_self_eq_true, if_true] at hl
          obtain ⟨p, hp, e⟩ := mapAll_found hl ho
          simp only [ha] at e
          cases e
          exact hp
      · cases hsec
    · cases hsec
  | parameter hn val hf hp hpk hx hin hreq hst hl ihf ihp =>
    intro hE
    have hb : Base V30.sParameter := base_of_check (by decide +kernel)
    have hP : ∀ q ∈ V30.sParameter.patterns, MapGood T N q.ty (val q.go) := patterns_x rfl (writable_good F hp).deep
    have hD := writable_distinct F hS (.parameter hn val hf hp hpk hx hin hreq hst hl) hE
    refine own_clear hT hn hb (by decide +kernel) (by decide) (enc_of (encode_nil_parts hn hb (X := ["SchemaXORContent", "Location"]) rfl rfl
      ?_ hP ?_)) hD ?_ ?_ (patterns_x rfl fun k hk => x_matches.2 (hpk k hk))
      (by intro a ha; cases ha) (by intro a ha; cases ha) (by intro a ha; cases ha)
    · intro f hff
      by_cases hx : ExplicitNull V30.sParameter f (val f.go)
      · exact .inl hx
      · exact .inr (writable_good F (hf f hff hx)).rt
    · intro go hgo
      simp only [List.mem_cons, List.not_mem_nil, or_false] at hgo
      rcases hgo with rfl | rfl
      · exact ⟨_, rfl, by decide, derived_nil hE (by decide) (by decide)⟩
      · exact ⟨_, rfl, by decide, derived_nil hE (by decide) (by decide)⟩
    · intro f hff _
      by_cases hx : ExplicitNull V30.sParameter f (val f.go)
      · obtain ⟨h1, h2⟩ := hx
        rw [nulls_field hb hff h1 rfl, h2]
        exact ⟨flat_clear rfl trivial, fun _ => rfl⟩
      · exact ⟨(ihf f hff hx (Spec.Everywhere.field hE (field_name hff))).clear,
          scalar_written (hf f hff hx)⟩
    · exact patterns_x rfl (mapClear_of (writable_good F hp).deep (ihp (Spec.Everywhere.field hE (by decide))).clear)

/-! ## OpenAPI 3.1 has no fields that repeat what other fields say -/

def freshCheck (T : Table) : Bool := T.all (fun p => match p.2 with
  | .struct s => s.names.all (fun go => !derived.contains go)
  | _ => true)

theorem fresh31 : freshCheck V31.table = true := by decide +kernel

theorem fresh_names {n : String} {s : Struct} (hn : GoMap.get? V31.table n = some (.struct s)) {go : String} (hg : go ∈ s.names) :
    go ∉ derived := by
  have h := List.all_eq_true.1 fresh31 _ (GoMap.mem_of_get? hn)
  have := List.all_eq_true.1 h _ hg
  simpa using this

theorem get?_not_mem {fs : List (String × Val)} {go : String} (h : go ∉ fs.map Prod.fst) : fieldIn fs go = .nil := by
  unfold fieldIn
  cases e : GoMap.get? fs go with
  | none => rfl
  | some v => exact absurd (List.mem_map.2 ⟨_, GoMap.mem_of_get? e, rfl⟩) h

theorem fresh_struct {n : String} {s : Struct} (hn : GoMap.get? V31.table n = some (.struct s)) {fs : List (String × Val)}
    (hk : ∀ k ∈ fs.map Prod.fst, k ∈ s.names) (hs : ∀ p ∈ fs, Everywhere noDerived p.2) : Everywhere noDerived (.struct fs) :=
  everywhere_struct (fun _ hgo => get?_not_mem fun hm => fresh_names hn (hk _ hm) hgo) hs

/-- What can be written as OpenAPI 3.1 has no field that repeats what other fields say. -/
theorem writable_fresh31 {Ok : String → String → Val → Prop} {ty : Ty} {v : Val} (h : Writable V31.table N Ok ty v) :
    Everywhere noDerived v := by
  induction h with
  | any h => exact everywhere_any
  | bool b => intro fs h; cases h
  | str s => exact everywhere_str
  | int h => intro fs h; cases h
  | float h => intro fs h; cases h
  | nilPtr t => exact everywhere_nil
  | ptr ht h1 h2 h ih => exact ih
  | nilSlice t => exact everywhere_nil
  | slice h ih => exact everywhere_list ih
  | nilMap t => exact everywhere_nil
  | map hk h ih => exact everywhere_map fun p hp => ih p.1 p.2 hp
  | enum hn h => exact everywhere_str
  | @plain n s hn hs hb val hf hp hpk ha hak hone hlow hnot ihf ihp iha =>
    refine fresh_struct hn (by simp) fun p hp => ?_
    obtain ⟨go, hgo, rfl⟩ := List.mem_map.1 hp
    simp only [Struct.names, hs.1, hs.2, List.map_nil, List.append_nil, List.mem_append, List.mem_map] at hgo
    rcases hgo with (⟨f, hff, rfl⟩ | ⟨q, hq, rfl⟩) | hgo
    · by_cases hx : ExplicitNull s f (val f.go)
      · rw [hx.2]; exact everywhere_any
      · exact ihf f hff hx
    · exact ihp q hq
    · split at hgo
      · rename_i a haa
        rw [List.mem_singleton] at hgo
        subst hgo
        exact iha a haa
      · cases hgo
  | @union n s hn hs go t v ho hv h hok ih =>
    refine fresh_struct hn ?_ fun p hp => ?_
    · intro k hk
      rw [hs]
      simpa [Struct.names, Function.comp_def] using hk
    · obtain ⟨x, hx, rfl⟩ := List.mem_map.1 hp
      simp only
      split
      · exact ih
      · exact everywhere_nil
  | http hn => exact absurd hn (by decide +kernel)
  | @security hn val hf hp hpk go t ho hv h hothers ihf ihp ih =>
    refine fresh_struct hn (by simp) fun p hp => ?_
    obtain ⟨g, hgo, rfl⟩ := List.mem_map.1 hp
    simp only [Struct.names, List.mem_append, List.mem_map] at hgo
    rcases hgo with (((⟨f, hff, rfl⟩ | ⟨e, he, rfl⟩) | ⟨x, hx, rfl⟩) | ⟨q, hq, rfl⟩) | hgo
    · exact ihf f hff
    · cases he
    · by_cases e : x.go = go
      · simp only [e]; exact ih
      · simp only [hothers x hx e]; exact everywhere_nil
    · exact patterns_x (P := fun q => Everywhere noDerived (val q.go)) rfl ihp q hq
    · cases hgo
  | parameter hn => exact absurd hn (by decide +kernel)

end Verif
