import Verif.Lemmas.RoundTrip

/-! Lemmas for reading the members of an object. -/

namespace Verif
open Codec Spec

variable {T : Table} {N : Nums}

/-! ## Keys of patterns and of fields -/

/-- No key of the pattern is the given key, even up to case. -/
def keyFree : Pat → String → Bool
  | .x, k => match foldKey k with
    | 'X' :: '-' :: _ => false
    | _ => true
  | .methods, k => ["get", "put", "post", "delete", "options", "head", "patch", "trace"].all
      (fun m => foldKey k != foldKey m)
  | .status, k => match foldKey k with
    | c :: _ => !"12345".toList.contains c
    | _ => true
  | .slash, k => match foldKey k with
    | '/' :: _ => false
    | _ => true
  | .name, _ => false

theorem keyFree_sound {p : Pat} {k k' : String} (h : keyFree p k = true) (hm : p.matches k' = true) :
    foldKey k ≠ foldKey k' := by
  intro e
  cases p with
  | x =>
    obtain ⟨rest, rfl⟩ := x_matches.1 hm
    have : ∃ cs, foldKey ("x-" ++ rest) = 'X' :: '-' :: cs := by
      unfold foldKey
      rw [String.toList_append]
      exact ⟨_, rfl⟩
    obtain ⟨cs, e'⟩ := this
    rw [e'] at e
    simp only [keyFree, e] at h
    cases h
  | methods =>
    have := methods_matches.1 hm
    simp only [keyFree, List.all_eq_true] at h
    have := h k' this
    simp [e] at this
  | status =>
    obtain ⟨a, b, c, rfl, ha, _⟩ := status_matches.1 hm
    have : ∃ cs, foldKey (String.ofList [a, b, c]) = a :: cs := by
      unfold foldKey
      rw [String.toList_ofList]
      have e : "12345".toList = ['1', '2', '3', '4', '5'] := by decide
      rw [e] at ha
      simp only [List.mem_cons, List.not_mem_nil, or_false] at ha
      rcases ha with rfl | rfl | rfl | rfl | rfl <;> exact ⟨_, rfl⟩
    obtain ⟨cs, e'⟩ := this
    rw [e'] at e
    simp only [keyFree, e] at h
    rw [List.contains_iff_mem.2 ha] at h
    cases h
  | slash =>
    obtain ⟨rest, rfl⟩ := slash_matches.1 hm
    have : ∃ cs, foldKey ("/" ++ rest) = '/' :: cs := by
      unfold foldKey
      rw [String.toList_append]
      exact ⟨_, rfl⟩
    obtain ⟨cs, e'⟩ := this
    rw [e'] at e
    simp only [keyFree, e] at h
    cases h
  | name => cases h

theorem fieldOf_mem' {fs : List Field} {k : String} {f : Field} (h : fieldOf fs k = some f) :
    f ∈ fs ∧ foldKey f.key = foldKey k := by
  unfold fieldOf at h
  split at h
  · rename_i g hg
    cases h
    exact ⟨List.mem_of_find?_eq_some hg, by have := List.find?_some hg; rw [beq_iff_eq] at this; rw [this]⟩
  · exact ⟨List.mem_of_find?_eq_some h, by have := List.find?_some h; rwa [beq_iff_eq] at this⟩

/-- Two patterns with no key in common. -/
def patDisjoint : Pat → Pat → Bool
  | .x, .methods => true
  | .x, .status => true
  | .x, .slash => true
  | .methods, .x => true
  | .status, .x => true
  | .slash, .x => true
  | _, _ => false

theorem patDisjoint_sound {p p' : Pat} (h : patDisjoint p p' = true) {k : String} (h1 : p.matches k = true) :
    p'.matches k = false := by
  have key : ∀ {p : Pat}, p = .methods ∨ p = .status ∨ p = .slash → p.matches k = true → Pat.x.matches k = false := by
    intro p hp h1
    rw [← Bool.not_eq_true]
    intro hx
    obtain ⟨rest, rfl⟩ := x_matches.1 hx
    have e : ("x-" ++ rest).toList = 'x' :: '-' :: rest.toList := by rw [String.toList_append]; rfl
    rcases hp with rfl | rfl | rfl
    · have := methods_matches.1 h1
      simp only [List.mem_cons, List.not_mem_nil, or_false] at this
      rcases this with h | h | h | h | h | h | h | h <;>
        · rw [h] at e
          have := congrArg List.head? e
          rw [List.head?_cons] at this
          revert this
          decide
    · obtain ⟨a, b, c, he, ha, _⟩ := status_matches.1 h1
      rw [he, String.toList_ofList] at e
      have e5 : "12345".toList = ['1', '2', '3', '4', '5'] := by decide
      rw [e5] at ha
      simp only [List.cons.injEq] at e
      rw [e.1] at ha
      revert ha
      decide
    · obtain ⟨r, he⟩ := slash_matches.1 h1
      rw [he, String.toList_append] at e
      have := congrArg List.head? e
      rw [List.head?_cons] at this
      revert this
      have : ("/".toList ++ r.toList).head? = some '/' := rfl
      rw [this]
      decide
  have flip : ∀ {p : Pat}, p = .methods ∨ p = .status ∨ p = .slash → Pat.x.matches k = true → p.matches k = false := by
    intro p hp h1
    rw [← Bool.not_eq_true]
    intro h2
    rw [key hp h2] at h1
    cases h1
  cases p <;> cases p' <;> first
    | cases h; done
    | exact key (by simp) h1
    | exact flip (by simp) h1

/-- A key that is left for patterns and additional entries. -/
def kept (s : Struct) (k : String) : Bool :=
  !(s.known.contains k || s.consts.any (fun c => c.1 == k) || s.notConsts.any (fun c => c.1 == k))

/-- What the descriptions of structs have in common: the keys of fields, constants and patterns do not meet. -/
structure Base (s : Struct) : Prop where
  names : s.names.Nodup
  decodes : s.decodes = true ∨ s.fields = []
  hidden : ∀ h ∈ s.hidden, hiddenTy s h.go = some h.ty
  own : ∀ f ∈ s.fields, fieldOf s.fields f.key = some f
  consts : ∀ c ∈ s.consts, fieldOf s.fields c.1 = none
  constsNodup : (s.consts.map Prod.fst).Nodup
  patFields : ∀ q ∈ s.patterns, ∀ k, q.pat.matches k = true → fieldOf s.fields k = none
  patKept : ∀ q ∈ s.patterns, ∀ k, q.pat.matches k = true → kept s k = true
  patOther : ∀ q ∈ s.patterns, ∀ q' ∈ s.patterns, q ≠ q' → ∀ k, q.pat.matches k = true → q'.pat.matches k = false
  additional : s.additional.isSome = true → s.fields = [] ∧ s.consts = [] ∧ ∀ k, kept s k = true
  known : (s.patterns = [] ∧ s.additional = none ∧ s.strict = false) ∨ ∀ f ∈ s.fields, f.key ∈ s.known
  nulls : ∀ n ∈ s.nulls, (⟨n.1, n.2, .ptr .any, true⟩ : Field) ∈ s.fields
  omits : ∀ f ∈ s.fields, f.omitempty = true → (∃ t, f.ty = .ptr t) ∨ (∃ t, f.ty = .slice t) ∨ ∃ t, f.ty = .map t
  lower : ∀ c ∈ s.lower, ∃ f ∈ s.fields, f.go = c.go ∧ f.omitempty = false
  notConsts : s.notConsts = []
  forbid : s.forbid = []

/-- The same as a check. -/
def baseCheck (s : Struct) : Bool :=
  decide s.names.Nodup && (s.decodes || s.fields == []) && s.hidden.all (fun h => hiddenTy s h.go == some h.ty) &&
  s.fields.all (fun f => fieldOf s.fields f.key == some f) &&
  s.consts.all (fun c => (fieldOf s.fields c.1).isNone) && decide (s.consts.map Prod.fst).Nodup &&
  s.patterns.all (fun q => s.fields.all (fun f => keyFree q.pat f.key)) &&
  s.patterns.all (fun q => (s.known == [] && s.consts == []) ||
    (s.known.all (fun k => keyFree q.pat k) && s.consts.all (fun c => keyFree q.pat c.1))) &&
  s.patterns.all (fun q => s.patterns.all (fun q' => q == q' || patDisjoint q.pat q'.pat)) &&
  (s.additional.isNone || (s.fields == [] && s.consts == [] && s.known == [])) &&
  ((s.patterns == [] && s.additional.isNone && !s.strict) || s.fields.all (fun f => s.known.contains f.key)) &&
  s.nulls.all (fun n => s.fields.contains ⟨n.1, n.2, .ptr .any, true⟩) &&
  s.fields.all (fun f => !f.omitempty || (match f.ty with
    | .ptr _ => true
    | .slice _ => true
    | .map _ => true
    | _ => false)) &&
  s.lower.all (fun c => s.fields.any (fun f => f.go == c.go && !f.omitempty)) &&
  s.notConsts == [] && s.forbid == []

theorem base_of_check {s : Struct} (h : baseCheck s = true) : Base s := by
  unfold baseCheck at h
  simp only [Bool.and_eq_true, decide_eq_true_eq, List.all_eq_true, Bool.or_eq_true, beq_iff_eq,
    Option.isNone_iff_eq_none, Bool.not_eq_true', List.contains_iff_mem, List.any_eq_true] at h
  obtain ⟨⟨⟨⟨⟨⟨⟨⟨⟨⟨⟨⟨⟨⟨⟨h1, h2⟩, h3⟩, h4⟩, h5⟩, h6⟩, h7⟩, h8⟩, h9⟩, h10⟩, h11⟩, h12⟩, h13⟩, h14⟩, h15⟩, h16⟩ := h
  refine ⟨h1, h2, h3, h4, h5, h6, ?_, ?_, ?_, ?_, ?_, h12, ?_, ?_, h15, h16⟩
  · intro q hq k hk
    cases hf : fieldOf s.fields k with
    | none => rfl
    | some f =>
      obtain ⟨a, b⟩ := fieldOf_mem' hf
      exact absurd b (keyFree_sound (h7 q hq f a) hk)
  · intro q hq k hk
    unfold kept
    rw [h15]
    simp only [List.any_nil, Bool.or_false, Bool.not_eq_eq_eq_not, Bool.not_true, Bool.or_eq_false_iff]
    rcases h8 q hq with ⟨a, b⟩ | ⟨a, b⟩
    · rw [a, b]; exact ⟨rfl, rfl⟩
    · constructor
      · rw [← Bool.not_eq_true, List.contains_iff_mem]
        intro hk'
        exact keyFree_sound (a k hk') hk rfl
      · rw [← Bool.not_eq_true, List.any_eq_true]
        rintro ⟨c, hc, e⟩
        rw [beq_iff_eq] at e
        exact keyFree_sound (b c hc) hk (by rw [e])
  · intro q hq q' hq' hne k hk
    rcases h9 q hq q' hq' with e | e
    · exact absurd e hne
    · exact patDisjoint_sound e hk
  · intro ha
    rcases h10 with e | ⟨⟨a, b⟩, c⟩
    · rw [e] at ha; cases ha
    · refine ⟨a, b, ?_⟩
      intro k
      unfold kept
      rw [h15, b, c]
      rfl
  · rcases h11 with ⟨⟨a, b⟩, c⟩ | h
    · exact .inl ⟨a, b, c⟩
    · exact .inr h
  · intro f hf ho
    rcases h13 f hf with e | e
    · rw [ho] at e; cases e
    · split at e
      · rename_i t ht; exact .inl ⟨t, ht⟩
      · rename_i t ht; exact .inr (.inl ⟨t, ht⟩)
      · rename_i t ht; exact .inr (.inr ⟨t, ht⟩)
      · cases e
  · intro c hc
    obtain ⟨f, hf, a, b⟩ := h14 c hc
    exact ⟨f, hf, a, b⟩

/-! ## Fields -/

theorem fieldVal_const {chosen : String → Bool} {ty : Ty} {w : Val} {l : List Member}
    (h : ∀ m ∈ l, chosen m.key = true → m.dec ty = some w) (v : Val)
    (hv : (∀ m ∈ l, chosen m.key = false) → w = v) : fieldVal chosen ty v l = some w := by
  induction l generalizing v with
  | nil => simp only [fieldVal]; rw [hv (fun m hm => nomatch hm)]
  | cons m l ih =>
    simp only [fieldVal]
    split
    · rename_i hc
      rw [h m List.mem_cons_self hc]
      exact ih (fun m' hm' => h m' (List.mem_cons_of_mem _ hm')) w (fun _ => rfl)
    · rename_i hc
      rw [Bool.not_eq_true] at hc
      refine ih (fun m' hm' => h m' (List.mem_cons_of_mem _ hm')) v (fun hn => hv ?_)
      intro m' hm'
      rcases List.mem_cons.1 hm' with rfl | hm'
      · exact hc
      · exact hn m' hm'

/-- The last member for a field, and that all of them can be read. -/
theorem fieldVal_iff {chosen : String → Bool} {ty : Ty} {l : List Member} {v w : Val} :
    fieldVal chosen ty v l = some w ↔ (∀ m ∈ l, chosen m.key = true → ∃ x, m.dec ty = some x) ∧
      (((∀ m ∈ l, chosen m.key = false) ∧ w = v) ∨
        ∃ l1 m l2, l = l1 ++ m :: l2 ∧ chosen m.key = true ∧ m.dec ty = some w ∧ ∀ m' ∈ l2, chosen m'.key = false) := by
  induction l generalizing v with
  | nil =>
    simp only [fieldVal, Option.some.injEq]
    constructor
    · intro h; exact ⟨(fun m hm => nomatch hm), .inl ⟨(fun m hm => nomatch hm), h.symm⟩⟩
    · rintro ⟨_, ⟨_, h⟩ | ⟨l1, m, l2, h, _⟩⟩
      · exact h.symm
      · cases l1 <;> cases h
  | cons a l ih =>
    simp only [fieldVal]
    split
    · rename_i hc
      cases hd : a.dec ty with
      | none =>
        simp only
        constructor
        · intro h; cases h
        · rintro ⟨h, _⟩
          obtain ⟨x, hx⟩ := h a List.mem_cons_self hc
          rw [hd] at hx; cases hx
      | some y =>
        simp only
        rw [ih]
        constructor
        · rintro ⟨h1, h2⟩
          refine ⟨?_, .inr ?_⟩
          · intro m hm hcm
            rcases List.mem_cons.1 hm with rfl | hm
            · exact ⟨y, hd⟩
            · exact h1 m hm hcm
          · rcases h2 with ⟨h2, rfl⟩ | ⟨l1, m, l2, rfl, h⟩
            · exact ⟨[], a, l, rfl, hc, hd, h2⟩
            · exact ⟨a :: l1, m, l2, rfl, h⟩
        · rintro ⟨h1, h2⟩
          refine ⟨fun m hm => h1 m (List.mem_cons_of_mem _ hm), ?_⟩
          rcases h2 with ⟨h2, _⟩ | ⟨l1, m, l2, e, h⟩
          · have := h2 a List.mem_cons_self
            rw [hc] at this; cases this
          · cases l1 with
            | nil =>
              simp only [List.nil_append, List.cons.injEq] at e
              obtain ⟨rfl, rfl⟩ := e
              rw [hd] at h
              exact .inl ⟨h.2.2, (Option.some.inj h.2.1).symm⟩
            | cons b l1 =>
              simp only [List.cons_append, List.cons.injEq] at e
              obtain ⟨rfl, rfl⟩ := e
              exact .inr ⟨l1, m, l2, rfl, h⟩
    · rename_i hc
      rw [Bool.not_eq_true] at hc
      rw [ih]
      constructor
      · rintro ⟨h1, h2⟩
        refine ⟨?_, ?_⟩
        · intro m hm hcm
          rcases List.mem_cons.1 hm with rfl | hm
          · rw [hc] at hcm; cases hcm
          · exact h1 m hm hcm
        · rcases h2 with ⟨h2, e⟩ | ⟨l1, m, l2, rfl, h⟩
          · left
            refine ⟨?_, e⟩
            intro m hm
            rcases List.mem_cons.1 hm with rfl | hm
            · exact hc
            · exact h2 m hm
          · exact .inr ⟨a :: l1, m, l2, rfl, h⟩
      · rintro ⟨h1, h2⟩
        refine ⟨fun m hm => h1 m (List.mem_cons_of_mem _ hm), ?_⟩
        rcases h2 with ⟨h2, e⟩ | ⟨l1, m, l2, e, h⟩
        · exact .inl ⟨fun m hm => h2 m (List.mem_cons_of_mem _ hm), e⟩
        · cases l1 with
          | nil =>
            simp only [List.nil_append, List.cons.injEq] at e
            obtain ⟨rfl, rfl⟩ := e
            rw [hc] at h; cases h.1
          | cons b l1 =>
            simp only [List.cons_append, List.cons.injEq] at e
            obtain ⟨rfl, rfl⟩ := e
            exact .inr ⟨l1, m, l2, rfl, h⟩

/-- A field gets the value of the last member for it, and all members for it can be read. -/
def FieldReads (T : Table) (N : Nums) (fs : List Field) (M : List (String × Any)) (f : Field) (w : Val) : Prop :=
  (∀ p ∈ M, fieldOf fs p.1 = some f → ∃ x, decode T N f.ty p.2 = some x) ∧
    (((∀ p ∈ M, fieldOf fs p.1 ≠ some f) ∧ w = zero T f.ty) ∨
      ∃ M1 p M2, M = M1 ++ p :: M2 ∧ fieldOf fs p.1 = some f ∧ decode T N f.ty p.2 = some w ∧
        ∀ p' ∈ M2, fieldOf fs p'.1 ≠ some f)

theorem fieldVal_reads {fs : List Field} {M : List (String × Any)} {f : Field} {w : Val} :
    fieldVal (fun k => fieldOf fs k == some f) f.ty (zero T f.ty) (M.map (memberOf T N)) = some w ↔
      FieldReads T N fs M f w := by
  rw [fieldVal_iff]
  unfold FieldReads
  constructor
  · rintro ⟨h1, h2⟩
    refine ⟨?_, ?_⟩
    · intro p hp e
      exact h1 _ (List.mem_map_of_mem hp) (by rw [beq_iff_eq]; exact e)
    · rcases h2 with ⟨h2, e⟩ | ⟨l1, m, l2, e, h3, h4, h5⟩
      · left
        refine ⟨?_, e⟩
        intro p hp e'
        have := h2 _ (List.mem_map_of_mem hp)
        rw [beq_eq_false_iff_ne] at this
        exact this e'
      · right
        obtain ⟨M1, M2', rfl, rfl, e2⟩ := List.map_eq_append_iff.1 e
        obtain ⟨p, M2, rfl, rfl, rfl⟩ := List.map_eq_cons_iff.1 e2
        refine ⟨M1, p, M2, rfl, by simpa [memberOf] using h3, h4, ?_⟩
        intro p' hp' e'
        have := h5 _ (List.mem_map_of_mem hp')
        rw [beq_eq_false_iff_ne] at this
        exact this e'
  · rintro ⟨h1, h2⟩
    refine ⟨?_, ?_⟩
    · intro m hm hc
      obtain ⟨p, hp, rfl⟩ := List.mem_map.1 hm
      rw [beq_iff_eq] at hc
      exact h1 p hp hc
    · rcases h2 with ⟨h2, e⟩ | ⟨M1, p, M2, rfl, h3, h4, h5⟩
      · left
        refine ⟨?_, e⟩
        intro m hm
        obtain ⟨p, hp, rfl⟩ := List.mem_map.1 hm
        rw [beq_eq_false_iff_ne]
        exact h2 p hp
      · right
        refine ⟨M1.map (memberOf T N), memberOf T N p, M2.map (memberOf T N), by simp, by simpa [memberOf] using h3, h4, ?_⟩
        intro m hm
        obtain ⟨p, hp, rfl⟩ := List.mem_map.1 hm
        rw [beq_eq_false_iff_ne]
        exact h5 p hp

theorem decodeFields_reads {s : Struct} (hd : s.decodes = true ∨ s.fields = []) {M : List (String × Any)}
    {w : Field → Val} (h : ∀ f ∈ s.fields, FieldReads T N s.fields M f (w f)) :
    decodeFields T s (view T N (.obj M)) = some (s.fields.map (fun f => (f.go, w f))) := by
  unfold decodeFields
  rcases hd with hd | hd
  · simp only [hd, view, viewMembers_eq]
    apply mapAll_some_of
    intro f hf
    rw [fieldVal_reads.2 (h f hf)]
    rfl
  · cases hdd : s.decodes with
    | false => simp [hd]
    | true => simp [view, hd, mapAll]

theorem fieldReads_const {fs : List Field} {M : List (String × Any)} {f : Field} {w : Val}
    (h : ∀ p ∈ M, fieldOf fs p.1 = some f → decode T N f.ty p.2 = some w)
    (hz : (∀ p ∈ M, fieldOf fs p.1 ≠ some f) → w = zero T f.ty) : FieldReads T N fs M f w := by
  rw [← fieldVal_reads]
  apply fieldVal_const
  · intro m hm hc
    obtain ⟨p, hp, rfl⟩ := List.mem_map.1 hm
    rw [beq_iff_eq] at hc
    exact h p hp hc
  · intro hn
    apply hz
    intro p hp e
    have := hn _ (List.mem_map_of_mem hp)
    rw [beq_eq_false_iff_ne] at this
    exact this e

theorem decodeFields_of {s : Struct} (hd : s.decodes = true ∨ s.fields = []) {M : List (String × Any)}
    {w : Field → Val}
    (h : ∀ f ∈ s.fields, ∀ p ∈ M, fieldOf s.fields p.1 = some f → decode T N f.ty p.2 = some (w f))
    (hz : ∀ f ∈ s.fields, (∀ p ∈ M, fieldOf s.fields p.1 ≠ some f) → w f = zero T f.ty) :
    decodeFields T s (view T N (.obj M)) = some (s.fields.map (fun f => (f.go, w f))) :=
  decodeFields_reads hd (fun f hf => fieldReads_const (h f hf) (hz f hf))

/-! ## Maps -/

theorem restOf_filter {s : Struct} {M : List (String × Any)} (q : String → Bool) :
    (restOf s (M.map (memberOf T N))).filter (fun p => q p.1) =
      (lastWins (M.filter (fun p => kept s p.1 && q p.1))).map (fun p => (p.1, memberOf T N p)) := by
  have e : lastWins (M.filter (fun p => kept s p.1 && q p.1)) =
      (lastWins M).filter (fun p => kept s p.1 && q p.1) := lastWins_filter (fun k => kept s k && q k) M
  unfold restOf
  rw [rawMap_obj, e, List.filter_map, List.filter_map, List.filter_filter]
  congr 1
  apply List.filter_congr
  intro p _
  simp only [Function.comp, kept, Bool.and_comm]

/-- The entries of a map can be written and read back. -/
def MapRt (T : Table) (N : Nums) (ty : Ty) (v : Val) : Prop :=
  ((entries v).map Prod.fst).Nodup ∧ ∀ p ∈ entries v, decode T N ty (enc T ty p.2) = some (rt T N ty p.2)

theorem decodeEntries_of {s : Struct} {M : List (String × Any)} {q : String → Bool} {ty : Ty} {v : Val}
    (hM : M.filter (fun p => kept s p.1 && q p.1) = mapMembers T ty v) (hv : MapRt T N ty v) :
    decodeEntries ty ((restOf s (M.map (memberOf T N))).filter (fun p => q p.1)) =
      some (madeMap ((entries v).map (fun p => (p.1, rt T N ty p.2)))) := by
  rw [restOf_filter, hM, lastWins_nodup]
  · unfold decodeEntries mapMembers
    rw [List.map_map, mapAll_map]
    rw [mapAll_some_of (g := fun p => (p.1, rt T N ty p.2))]
    · rfl
    · intro p hp
      simp only [Function.comp, memberOf]
      rw [hv.2 p hp]
      rfl
  · unfold mapMembers
    simpa [Function.comp_def] using hv.1

/-- The values of the maps that are read back. -/
def mapVal (T : Table) (N : Nums) (ty : Ty) (v : Val) : Val :=
  madeMap ((entries v).map (fun p => (p.1, rt T N ty p.2)))

/-- The same for the additional entries. -/
def addVals (T : Table) (N : Nums) (s : Struct) (val : String → Val) : List (String × Val) :=
  match s.additional with
  | some a => [(a.go, mapVal T N a.ty (val a.go))]
  | none => []

theorem decodeRest_of {s : Struct} {M : List (String × Any)} {val : String → Val}
    (hp : ∀ q ∈ s.patterns, M.filter (fun p => kept s p.1 && q.pat.matches p.1) = mapMembers T q.ty (val q.go) ∧
      MapRt T N q.ty (val q.go))
    (hu : match s.additional with
      | some a => M.filter (fun p => kept s p.1 && !s.patterns.any (fun q => q.pat.matches p.1)) =
          mapMembers T a.ty (val a.go) ∧ MapRt T N a.ty (val a.go)
      | none => s.strict = true →
          M.filter (fun p => kept s p.1 && !s.patterns.any (fun q => q.pat.matches p.1)) = []) :
    decodeRest s (M.map (memberOf T N)) = some (s.patterns.map (fun q => (q.go, mapVal T N q.ty (val q.go))) ++
      addVals T N s val) := by
  unfold decodeRest addVals
  simp only
  rw [mapAll_some_of (g := fun q : PatField => (q.go, mapVal T N q.ty (val q.go)))]
  · simp only
    cases ha : s.additional with
    | none =>
      rw [ha] at hu
      simp only at hu ⊢
      rw [restOf_filter (fun k => !s.patterns.any (fun q => q.pat.matches k))]
      cases hs : s.strict with
      | false => simp
      | true =>
        rw [hu hs]
        simp [lastWins]
    | some a =>
      rw [ha] at hu
      simp only at hu ⊢
      rw [decodeEntries_of (q := fun k => !s.patterns.any (fun q => q.pat.matches k)) hu.1 hu.2]
      rfl
  · intro q hq
    rw [decodeEntries_of (q := fun k => q.pat.matches k) (hp q hq).1 (hp q hq).2]
    rfl

end Verif
