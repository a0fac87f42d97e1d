import Verif.Lemmas.RoundTripRead

/-! Structs that are written and read back. -/

namespace Verif
open Codec Spec

variable {T : Table} {N : Nums}

/-- A value is read back as it was written. -/
def Rt (T : Table) (N : Nums) (ty : Ty) (v : Val) : Prop :=
  ∃ j w, encode T ty v = some j ∧ decode T N ty j = some w ∧ Same v w

theorem Rt.writes {ty : Ty} {v : Val} (h : Rt T N ty v) : ∃ j, encode T ty v = some j := by
  obtain ⟨j, _, h, _⟩ := h; exact ⟨j, h⟩

theorem Rt.reads {ty : Ty} {v : Val} (h : Rt T N ty v) : decode T N ty (enc T ty v) = some (rt T N ty v) := by
  obtain ⟨j, w, h1, h2, _⟩ := h
  simp [enc, rt, h1, h2]

theorem Rt.same {ty : Ty} {v : Val} (h : Rt T N ty v) : Same v (rt T N ty v) := by
  obtain ⟨j, w, h1, h2, h3⟩ := h
  simpa [rt, h1, h2] using h3

/-! ## Same -/

theorem sameEntries_append {a b a' b' : List (String × Val)} (h : SameEntries a b) (h' : SameEntries a' b') :
    SameEntries (a ++ a') (b ++ b') := by
  induction a generalizing b with
  | nil => cases h; exact h'
  | cons p a ih =>
    cases h with
    | cons h hs => exact .cons h (ih hs)

theorem sameEntries_map {α : Type} {l : List α} {g : α → String} {a b : α → Val}
    (h : ∀ x ∈ l, Same (a x) (b x)) :
    SameEntries (l.map (fun x => (g x, a x))) (l.map (fun x => (g x, b x))) := by
  induction l with
  | nil => exact .nil
  | cons x l ih => exact .cons (h x List.mem_cons_self) (ih (fun y hy => h y (List.mem_cons_of_mem _ hy)))

theorem sameFilled_append {a b a' b' : List (String × Val)} (h : SameFilled a b) (h' : SameFilled a' b') :
    SameFilled (a ++ a') (b ++ b') := by
  induction a generalizing b with
  | nil => cases h; exact h'
  | cons p a ih =>
    cases h with
    | cons h hs => exact .cons h (ih hs)
    | derived h hs => exact .derived h (ih hs)
    | style h hs => exact .style h (ih hs)

/-- What may happen to a field. -/
def SameField (k : String) (v w : Val) : Prop :=
  Same v w ∨ (k ∈ derived ∧ v = .nil) ∨ (k = "Style" ∧ v = .nil ∧ ∃ s ∈ ["simple", "form"], w = .str s)

theorem sameFilled_map {α : Type} {l : List α} {g : α → String} {a b : α → Val}
    (h : ∀ x ∈ l, SameField (g x) (a x) (b x)) :
    SameFilled (l.map (fun x => (g x, a x))) (l.map (fun x => (g x, b x))) := by
  induction l with
  | nil => exact .nil
  | cons x l ih =>
    have ih := ih (fun y hy => h y (List.mem_cons_of_mem _ hy))
    simp only [List.map_cons]
    rcases h x List.mem_cons_self with h | ⟨h1, h2⟩ | ⟨h1, h2, s, hs, h3⟩
    · exact .cons h ih
    · rw [h2]; exact .derived h1 ih
    · rw [h1, h2, h3]; exact .style hs ih

theorem sameList_map {α : Type} {l : List α} {a b : α → Val} (h : ∀ x ∈ l, Same (a x) (b x)) :
    SameList (l.map a) (l.map b) := by
  induction l with
  | nil => exact .nil
  | cons x l ih => exact .cons (h x List.mem_cons_self) (ih (fun y hy => h y (List.mem_cons_of_mem _ hy)))

theorem same_nil {v : Val} (h : Same v .nil) : v = .nil ∨ v = .list [] ∨ v = .map [] := by
  cases h with
  | same => exact .inl rfl
  | emptyList => exact .inr (.inl rfl)
  | emptyMap => exact .inr (.inr rfl)

theorem same_str {s : String} {w : Val} (h : Same (.str s) w) : w = .str s := by
  cases h; rfl

theorem same_bool {s : Bool} {w : Val} (h : Same (.bool s) w) : w = .bool s := by
  cases h; rfl

/-! ## Maps -/

/-- A map whose entries can be written and read back. -/
def MapGood (T : Table) (N : Nums) (ty : Ty) (v : Val) : Prop :=
  v = .nil ∨ ∃ es, v = .map es ∧ (es.map Prod.fst).Nodup ∧ ∀ p ∈ es, Rt T N ty p.2

theorem MapGood.ok {ty : Ty} {v : Val} (h : MapGood T N ty v) : MapOk T ty v := by
  rcases h with h | ⟨es, h, _, h'⟩
  · exact .inl h
  · exact .inr ⟨es, h, fun p hp => (h' p hp).writes⟩

theorem MapGood.rt {ty : Ty} {v : Val} (h : MapGood T N ty v) : MapRt T N ty v := by
  rcases h with rfl | ⟨es, rfl, h1, h'⟩
  · exact ⟨List.nodup_nil, fun p hp => nomatch hp⟩
  · exact ⟨h1, fun p hp => (h' p hp).reads⟩

theorem MapGood.same {ty : Ty} {v : Val} (h : MapGood T N ty v) : Same v (mapVal T N ty v) := by
  rcases h with rfl | ⟨es, rfl, h1, h'⟩
  · exact .same _
  · cases es with
    | nil => exact .emptyMap
    | cons e es =>
      have := sameEntries_map (l := e :: es) (g := Prod.fst) (a := Prod.snd) (b := fun p => Verif.rt T N ty p.2)
        (fun p hp => (h' p hp).same)
      rw [show (e :: es).map (fun x => (x.1, x.2)) = e :: es from List.map_id _] at this
      exact .map this

theorem MapGood.entries {ty : Ty} {v : Val} (h : MapGood T N ty v) : ∀ p ∈ entries v, Rt T N ty p.2 := by
  rcases h with rfl | ⟨es, rfl, h1, h'⟩
  · exact fun p hp => nomatch hp
  · exact h'

/-! ## Fields -/

/-- A field can be written and read back. -/
def FieldRt (T : Table) (N : Nums) (s : Struct) (val : String → Val) (f : Field) : Prop :=
  ExplicitNull s f (val f.go) ∨ Rt T N f.ty (val f.go)

/-- The value of a field before explicit nulls are remembered. -/
def fieldRead (T : Table) (N : Nums) (val : String → Val) (f : Field) : Val :=
  if omitted f (val f.go) then zero T f.ty else rt T N f.ty (val f.go)

theorem field_eq {s : Struct} (hb : Base s) {f g : Field} (hf : f ∈ s.fields) (hg : g ∈ s.fields) (h : f.key = g.key) :
    f = g := by
  have a := hb.own f hf
  have b := hb.own g hg
  rw [h, b] at a
  exact (Option.some.inj a).symm

theorem field_go_eq {s : Struct} (hb : Base s) {f g : Field} (hf : f ∈ s.fields) (hg : g ∈ s.fields) (h : f.go = g.go) :
    f = g := by
  have hnd : (s.fields.map Field.go).Nodup := by
    have := hb.names
    unfold Struct.names at this
    simp only [List.append_assoc] at this
    exact (List.nodup_append.1 this).1
  generalize s.fields = l at *
  induction l with
  | nil => cases hf
  | cons x l ih =>
    rw [List.map_cons, List.nodup_cons] at hnd
    rcases List.mem_cons.1 hf with hf1 | hf1 <;> rcases List.mem_cons.1 hg with hg1 | hg1
    · rw [hf1, hg1]
    · exfalso
      apply hnd.1
      rw [← hf1, h]
      exact List.mem_map_of_mem hg1
    · exfalso
      apply hnd.1
      rw [← hg1, ← h]
      exact List.mem_map_of_mem hf1
    · exact ih hf1 hg1 hnd.2

theorem nulls_field {s : Struct} (hb : Base s) {f : Field} (hf : f ∈ s.fields) {n : String × String} (hn : n ∈ s.nulls)
    (h : n.1 = f.go) : f = ⟨f.go, n.2, .ptr .any, true⟩ := by
  have := field_go_eq hb hf (hb.nulls n hn) h.symm
  rw [this]

theorem field_encodes {s : Struct} {val : String → Val} {f : Field} (hb : Base s) (hf : f ∈ s.fields)
    (h : FieldRt T N s val f) : ∃ j, encode T f.ty (val f.go) = some j := by
  rcases h with ⟨h1, h2⟩ | h
  · have := nulls_field hb hf h1 rfl
    rw [this, h2]
    exact ⟨.null, rfl⟩
  · exact h.writes

theorem field_decodes (hT : Ranked T) {s : Struct} {val : String → Val} {f : Field} (hb : Base s) (hf : f ∈ s.fields)
    (h : FieldRt T N s val f) : decode T N f.ty (enc T f.ty (val f.go)) = some (rt T N f.ty (val f.go)) := by
  rcases h with ⟨h1, h2⟩ | h
  · have e := nulls_field hb hf h1 rfl
    have ety : f.ty = .ptr .any := by rw [e]
    rw [ety, h2]
    have a : encode T (.ptr .any) (.any .null) = some .null := rfl
    have b : decode T N (.ptr .any) .null = some .nil := decode_ptr hT rfl _
    rw [enc_of a, b]
    simp [rt, a, b]
  · exact h.reads

theorem field_same (hT : Ranked T) {s : Struct} {val : String → Val} {f : Field} (hb : Base s) (hf : f ∈ s.fields)
    (h : FieldRt T N s val f) {ms : List Member} (hk : hasKey ms f.key = !omitted f (val f.go)) :
    Same (val f.go) (rememberNull s ms (f.go, fieldRead T N val f)).2 := by
  rcases h with ⟨h1, h2⟩ | h
  · have e := nulls_field hb hf h1 rfl
    have ety : f.ty = .ptr .any := by rw [e]
    have ho : omitted f (val f.go) = false := by rw [h2]; unfold omitted; rw [ety]; simp
    have er : fieldRead T N val f = .nil := by
      unfold fieldRead
      rw [ho]
      have a : encode T (.ptr .any) (.any .null) = some .null := rfl
      have b : decode T N (.ptr .any) .null = some .nil := decode_ptr hT rfl _
      rw [ety, h2]
      simp [rt, a, b]
    have hany : s.nulls.any (fun n => n.1 == f.go && hasKey ms n.2) = true := by
      rw [List.any_eq_true]
      exact ⟨_, h1, by simp [hk, ho]⟩
    simp only [rememberNull, er]
    rw [if_pos hany]
    simp only [h2]
    exact .same _
  · have hany : s.nulls.any (fun n => n.1 == f.go && hasKey ms n.2) = true →
        f.ty = .ptr .any ∧ omitted f (val f.go) = false := by
      intro hn
      rw [List.any_eq_true] at hn
      obtain ⟨n, hn, e⟩ := hn
      simp only [Bool.and_eq_true, beq_iff_eq] at e
      have ef := nulls_field hb hf hn e.1
      have ek : f.key = n.2 := by rw [ef]
      rw [← ek, hk] at e
      exact ⟨by rw [ef], by simpa using e.2⟩
    cases ho : omitted f (val f.go) with
    | true =>
      have hz : Same (val f.go) .nil ∧ zero T f.ty = .nil := by
        unfold omitted at ho
        rw [Bool.and_eq_true] at ho
        rcases hb.omits f hf ho.1 with ⟨t, e⟩ | ⟨t, e⟩ | ⟨t, e⟩
        · rw [e] at ho ⊢
          refine ⟨?_, rfl⟩
          revert ho
          cases val f.go <;> intro ho <;> first | exact .same _ | exact absurd ho.2 (by simp)
        · rw [e] at ho h ⊢
          refine ⟨?_, rfl⟩
          obtain ⟨j, hj⟩ := h.writes
          revert ho hj
          cases val f.go with
          | nil => intro _ _; exact .same _
          | list vs =>
            intro ho _
            have := ho.2
            simp only [isEmpty, List.isEmpty_iff] at this
            rw [this]; exact .emptyList
          | _ => intro _ hj; cases hj
        · rw [e] at ho h ⊢
          refine ⟨?_, rfl⟩
          obtain ⟨j, hj⟩ := h.writes
          revert ho hj
          cases val f.go with
          | nil => intro _ _; exact .same _
          | map vs =>
            intro ho _
            have := ho.2
            simp only [isEmpty, List.isEmpty_iff] at this
            rw [this]; exact .emptyMap
          | _ => intro _ hj; cases hj
      have er : fieldRead T N val f = .nil := by
        unfold fieldRead
        rw [if_pos ho, hz.2]
      simp only [rememberNull, er]
      rw [if_neg]
      · exact hz.1
      · intro hn
        rw [(hany hn).2] at ho
        cases ho
    | false =>
      have er : fieldRead T N val f = rt T N f.ty (val f.go) := by
        unfold fieldRead
        rw [ho]; rfl
      have hs := h.same
      rw [er]
      unfold rememberNull
      split
      · rename_i hnil
        simp only at hnil
        split
        · rename_i hn
          exfalso
          have ety := (hany hn).1
          rw [hnil] at hs
          obtain ⟨j, hj⟩ := h.writes
          rw [ety] at hj
          rcases same_nil hs with e | e | e
          · rw [e] at ho
            unfold omitted at ho
            rw [List.any_eq_true] at hn
            obtain ⟨n, hn, en⟩ := hn
            simp only [Bool.and_eq_true, beq_iff_eq] at en
            have ef := nulls_field hb hf hn en.1
            have : f.omitempty = true := by rw [ef]
            rw [ety, this] at ho
            cases ho
          · rw [e] at hj; cases hj
          · rw [e] at hj; cases hj
        · exact hs
      · exact hs

/-! ## Structs -/

/-- Reading an object, given what is read into the fields. -/
theorem decode_reads (hT : Ranked T) {n : String} {s : Struct} (hn : GoMap.get? T n = some (.struct s)) (hb : Base s)
    {M : List (String × Any)} {val : String → Val} {rd : Field → Val}
    (hR : ∀ f ∈ s.fields, FieldReads T N s.fields M f (rd f))
    (hnots : ∀ t ∈ s.nots, decode T N t (.obj M) = none)
    {evals ovals : List (String × Val)}
    (hemb : decodeEmbeds (fun t => decode T N t (.obj M)) s.embeds = some evals)
    (hone : decodeOneOf (fun t => decode T N t (.obj M)) s.oneOf = some ovals)
    (hreq : ∀ k ∈ s.require, k ∈ M.map Prod.fst)
    (hex : ∀ a b, s.exactlyOne = some (a, b) → (¬a ∈ M.map Prod.fst ↔ b ∈ M.map Prod.fst))
    (hconst : ∀ c ∈ s.consts, ∀ p ∈ M, p.1 = c.1 → c.2.is p.2 = true)
    (hlow : ∀ c ∈ s.lower, ∀ f ∈ s.fields, f.go = c.go → ∃ t, rd f = .str t ∧ (goToLower t == c.value) = c.mustBe)
    (hp : ∀ q ∈ s.patterns, M.filter (fun p => kept s p.1 && q.pat.matches p.1) = mapMembers T q.ty (val q.go) ∧
      MapRt T N q.ty (val q.go))
    (hu : match s.additional with
      | some a => M.filter (fun p => kept s p.1 && !s.patterns.any (fun q => q.pat.matches p.1)) =
          mapMembers T a.ty (val a.go) ∧ MapRt T N a.ty (val a.go)
      | none => s.strict = true →
          M.filter (fun p => kept s p.1 && !s.patterns.any (fun q => q.pat.matches p.1)) = []) :
    decode T N (.named n) (.obj M) = some (.struct (s.fields.map (fun f => (f.go,
        (rememberNull s (M.map (memberOf T N)) (f.go, rd f)).2)) ++ evals ++
        ovals ++ (s.patterns.map (fun q => (q.go, mapVal T N q.ty (val q.go))) ++
      addVals T N s val))) := by
  rw [decode_struct_some hT hn]
  refine ⟨hnots, s.fields.map (fun f => (f.go, rd f)), evals, ovals, _, decodeFields_reads hb.decodes hR, hemb, hone, ?_,
    decodeRest_of (val := val) hp hu, ?_⟩
  · rw [rawChecks_iff]
    refine ⟨fun k hk => hasKey_obj.2 (hreq k hk), ?_, ?_, ?_, ?_, ?_⟩
    · intro a b hab e
      have := hex a b hab
      rw [← hasKey_obj (T := T) (N := N), ← hasKey_obj (T := T) (N := N)] at this
      simp only [membersOf] at e
      rw [e] at this
      cases h : hasKey (M.map (memberOf T N)) b <;> rw [h] at this <;> simp at this
    · intro c hc m hm
      simp only [membersOf] at hm
      rw [rawMap_get?] at hm
      cases hl : Spec.lastValue M c.1 with
      | none => rw [hl] at hm; cases hm
      | some a =>
        rw [hl] at hm
        simp only [Option.map_some, Option.some.injEq] at hm
        rw [← hm]
        have hmem : (c.1, a) ∈ M := by
          unfold Spec.lastValue at hl
          cases hf : M.reverse.find? (fun p => p.1 == c.1) with
          | none => rw [hf] at hl; cases hl
          | some p =>
            rw [hf] at hl
            simp only [Option.map_some, Option.some.injEq] at hl
            have := List.find?_some hf
            rw [beq_iff_eq] at this
            rw [← this, ← hl]
            exact List.mem_reverse.1 (List.mem_of_find?_eq_some hf)
        exact hconst c hc _ hmem rfl
    · intro c hc
      rw [hb.notConsts] at hc
      cases hc
    · intro c hc
      rw [hb.forbid] at hc
      cases hc
    · intro c hc
      obtain ⟨f, hf, e, ho⟩ := hb.lower c hc
      obtain ⟨t, hr, h2⟩ := hlow c hc f hf e
      have hg : fieldGet (s.fields.map (fun f => (f.go, rd f))) c.go = some (.str t) := by
        rw [← e, ← hr]
        unfold fieldGet
        have key : ∀ l : List Field, (∀ g ∈ l, g ∈ s.fields) → f ∈ l →
            GoMap.get? (l.map (fun f => (f.go, rd f))) f.go = some (rd f) := by
          intro l
          induction l with
          | nil => intro _ h; cases h
          | cons x l ih =>
            intro hl hfl
            simp only [List.map_cons, GoMap.get?]
            split
            · rename_i hx
              rw [field_go_eq hb (hl x List.mem_cons_self) hf hx]
            · rename_i hx
              rcases List.mem_cons.1 hfl with rfl | hfl
              · exact absurd rfl hx
              · exact ih (fun g hg => hl g (List.mem_cons_of_mem _ hg)) hfl
        exact key s.fields (fun g hg => hg) hf
      rw [hg]
      simp [h2]
  · have e : (s.fields.map (fun f => (f.go, rd f))).map (rememberNull s (M.map (memberOf T N))) =
        s.fields.map (fun f => (f.go, (rememberNull s (M.map (memberOf T N)) (f.go, rd f)).2)) := by
      rw [List.map_map]
      apply List.map_congr_left
      intro f hf
      apply Prod.ext
      · simp only [Function.comp]
        rw [rememberNull_fst]
      · rfl
    simp only [membersOf]
    rw [e]

/-- The value of a field that is read from the members of an object. -/
def fieldBack (T : Table) (N : Nums) (s : Struct) (val : String → Val) (M : List (String × Any)) (f : Field) : Val :=
  (rememberNull s (M.map (memberOf T N)) (f.go, fieldRead T N val f)).2

theorem field_hasKey {s : Struct} {M : List (String × Any)} {val : String → Val}
    (hM2 : ∀ f ∈ s.fields, f.key ∈ M.map Prod.fst ↔ omitted f (val f.go) = false) :
    ∀ f ∈ s.fields, hasKey (M.map (memberOf T N)) f.key = !omitted f (val f.go) := by
  intro f hf
  rw [Bool.eq_iff_iff, hasKey_obj, hM2 f hf]
  simp

/-- Reading an object whose members are those of a value. -/
theorem decode_good (hT : Ranked T) {n : String} {s : Struct} (hn : GoMap.get? T n = some (.struct s)) (hb : Base s)
    {M : List (String × Any)} {val : String → Val}
    (hF : ∀ f ∈ s.fields, FieldRt T N s val f)
    (hM1 : ∀ p ∈ M, ∀ f ∈ s.fields, fieldOf s.fields p.1 = some f →
      omitted f (val f.go) = false ∧ p.2 = enc T f.ty (val f.go))
    (hM2 : ∀ f ∈ s.fields, f.key ∈ M.map Prod.fst ↔ omitted f (val f.go) = false)
    (hnots : ∀ t ∈ s.nots, decode T N t (.obj M) = none)
    {evals ovals : List (String × Val)}
    (hemb : decodeEmbeds (fun t => decode T N t (.obj M)) s.embeds = some evals)
    (hone : decodeOneOf (fun t => decode T N t (.obj M)) s.oneOf = some ovals)
    (hreq : ∀ k ∈ s.require, k ∈ M.map Prod.fst)
    (hex : ∀ a b, s.exactlyOne = some (a, b) → (¬a ∈ M.map Prod.fst ↔ b ∈ M.map Prod.fst))
    (hconst : ∀ c ∈ s.consts, ∀ p ∈ M, p.1 = c.1 → c.2.is p.2 = true)
    (hlow : ∀ c ∈ s.lower, ∃ t, val c.go = .str t ∧ (goToLower t == c.value) = c.mustBe)
    (hp : ∀ q ∈ s.patterns, M.filter (fun p => kept s p.1 && q.pat.matches p.1) = mapMembers T q.ty (val q.go) ∧
      MapRt T N q.ty (val q.go))
    (hu : match s.additional with
      | some a => M.filter (fun p => kept s p.1 && !s.patterns.any (fun q => q.pat.matches p.1)) =
          mapMembers T a.ty (val a.go) ∧ MapRt T N a.ty (val a.go)
      | none => s.strict = true →
          M.filter (fun p => kept s p.1 && !s.patterns.any (fun q => q.pat.matches p.1)) = []) :
    decode T N (.named n) (.obj M) = some (.struct (s.fields.map (fun f => (f.go, fieldBack T N s val M f)) ++ evals ++
        ovals ++ (s.patterns.map (fun q => (q.go, mapVal T N q.ty (val q.go))) ++
      addVals T N s val))) ∧ ∀ f ∈ s.fields, Same (val f.go) (fieldBack T N s val M f) := by
  have hkey := field_hasKey (T := T) (N := N) hM2
  refine ⟨?_, fun f hf => field_same hT hb hf (hF f hf) (hkey f hf)⟩
  refine decode_reads hT hn hb ?_ hnots hemb hone hreq hex hconst ?_ hp hu
  · intro f hf
    apply fieldReads_const
    · intro p hp hfo
      obtain ⟨a, b⟩ := hM1 p hp f hf hfo
      rw [b]
      unfold fieldRead
      rw [a]
      exact field_decodes hT hb hf (hF f hf)
    · intro hno
      have : omitted f (val f.go) = true := by
        cases ho : omitted f (val f.go) with
        | true => rfl
        | false =>
          exfalso
          obtain ⟨p, hp, e⟩ := List.mem_map.1 ((hM2 f hf).2 ho)
          exact hno p hp (by rw [e]; exact hb.own f hf)
      unfold fieldRead
      rw [this]; rfl
  · intro c hc f hf e
    obtain ⟨t, h1, h2⟩ := hlow c hc
    obtain ⟨g, hg, eg, ho⟩ := hb.lower c hc
    have : f = g := field_go_eq hb hf hg (e.trans eg.symm)
    subst this
    have hom : omitted f (val f.go) = false := by unfold omitted; rw [ho]; rfl
    refine ⟨t, ?_, h2⟩
    unfold fieldRead
    rw [hom]
    rcases hF f hf with ⟨_, h⟩ | h
    · rw [e, h1] at h; cases h
    · have := h.same
      rw [e, h1] at this
      have := same_str this
      simpa [e, h1] using this

end Verif
