import Verif.Lemmas.Builder
import Verif.Lemmas.Load

/-! The JSON of a struct after one of its fields was replaced. -/

namespace Verif.Build
open Codec Spec

variable {T : Table}

/-! ## Types that are written as objects -/

/-- Values of these types are written as objects or `null`. -/
def objTy (T : Table) : Nat → Ty → Bool
  | _, .map _ => true
  | 0, _ => false
  | r + 1, .ptr t => objTy T r t
  | r + 1, .named n =>
    match GoMap.get? T n with
    | some (.struct s) => s.parts.all (fun p => match p with
      | .hidden go => match hiddenTy s go with
        | some ty => objTy T r ty
        | none => false
      | _ => true)
    | _ => false
  | _, _ => false

theorem encode_map_part {t : Ty} {v : Val} {j : Any} (h : encode T (.map t) v = some j) : IsPart j := by
  cases v with
  | nil => simp at h; exact .inl h.symm
  | map ms =>
    rw [encode_map] at h
    obtain ⟨l, _, rfl⟩ := Option.map_eq_some_iff.1 h
    exact .inr ⟨_, rfl⟩
  | _ => simp [encode, encodeView, vview] at h

theorem encodePart_part {s : Struct} {fs : List (String × Val)} {p : Part} {j : Any}
    (hp : ∀ go ty, p = .hidden go → hiddenTy s go = some ty → ∀ v j, encode T ty v = some j → IsPart j)
    (h : encodePart s (fs.map (slotFor T)) p = some j) : IsPart j := by
  cases p with
  | consts cs => simp only [encodePart, Option.some.injEq] at h; exact .inr ⟨_, h.symm⟩
  | fields =>
    simp only [encodePart] at h
    obtain ⟨l, _, rfl⟩ := Option.map_eq_some_iff.1 h
    exact .inr ⟨_, rfl⟩
  | hidden go =>
    simp only [encodePart] at h
    split at h
    · rename_i slot ty hs ht
      have hm := List.mem_of_find?_eq_some hs
      obtain ⟨q, _, rfl⟩ := List.mem_map.1 hm
      exact hp go ty rfl ht q.2 j h
    · cases h

theorem objTy_part : ∀ {r : Nat} {ty : Ty}, objTy T r ty = true → ∀ {v : Val} {j : Any}, encode T ty v = some j → IsPart j
  | _, .map t, _, _, _, h => encode_map_part h
  | r + 1, .ptr t, ho, v, j, h => by
    by_cases hv : v = .nil
    · subst hv; simp at h; exact .inl h.symm
    · rw [encode_ptr T hv] at h
      exact objTy_part (r := r) (by simpa [objTy] using ho) h
  | r + 1, .named n, ho, v, j, h => by
    simp only [objTy] at ho
    split at ho
    · rename_i s hn
      cases v with
      | struct fs =>
        rw [encode_struct hn] at h
        split at h
        · rename_i js hjs
          have : ∀ j ∈ js, IsPart j := by
            intro j hj
            obtain ⟨p, hp, hpj⟩ := mapAll_from hjs j hj
            refine encodePart_part (fun go ty e ht v j hvj => ?_) hpj
            have := List.all_eq_true.mp ho p hp
            rw [e] at this
            simp only [ht] at this
            exact objTy_part this hvj
          rw [unionJ_parts this] at h
          exact .inr ⟨_, (Option.some.inj h).symm⟩
        · cases h
      | _ => simp [encode, encodeView, vview, hn] at h
    · cases ho
  | 0, .ptr _, ho, _, _, _ => by simp [objTy] at ho
  | 0, .named _, ho, _, _, _ => by simp [objTy] at ho
  | r, .any, ho, _, _, _ => by cases r <;> simp [objTy] at ho
  | r, .bool, ho, _, _, _ => by cases r <;> simp [objTy] at ho
  | r, .str, ho, _, _, _ => by cases r <;> simp [objTy] at ho
  | r, .int, ho, _, _, _ => by cases r <;> simp [objTy] at ho
  | r, .float, ho, _, _, _ => by cases r <;> simp [objTy] at ho
  | r, .slice _, ho, _, _, _ => by cases r <;> simp [objTy] at ho

/-! ## One field replaced -/

theorem inj_of_nodup {α : Type} {f : α → String} {l : List α} (h : (l.map f).Nodup) {a b : α} (ha : a ∈ l) (hb : b ∈ l)
    (e : f a = f b) : a = b := by
  induction l with
  | nil => cases ha
  | cons x l ih =>
    rw [List.map_cons, List.nodup_cons] at h
    rcases List.mem_cons.1 ha with ea | ha'
    · rcases List.mem_cons.1 hb with eb | hb'
      · rw [ea, eb]
      · exact absurd (List.mem_map.2 ⟨b, hb', by rw [← e, ea]⟩) h.1
    · rcases List.mem_cons.1 hb with eb | hb'
      · exact absurd (List.mem_map.2 ⟨a, ha', by rw [e, eb]⟩) h.1
      · exact ih h.2 ha' hb'


theorem slotOf_out {names : List String} {val : String → Val} {go : String} (h : go ∉ names) :
    slotOf ((names.map (fun g => (g, val g))).map (slotFor T)) go = none := by
  unfold slotOf
  rw [List.find?_eq_none]
  intro x hx
  simp only [List.map_map, List.mem_map] at hx
  obtain ⟨g, hg, rfl⟩ := hx
  simp only [Function.comp_def, slotFor, beq_iff_eq]
  intro e
  exact h (e ▸ hg)

/-- The fields of a struct with their encodings. -/
abbrev slots (T : Table) (s : Struct) (val : String → Val) : List Slot :=
  (s.names.map (fun go => (go, val go))).map (slotFor T)

theorem slots_congr {s : Struct} (hnd : s.names.Nodup) {val val' : String → Val} {go : String} (h : val go = val' go) :
    slotOf (slots T s val) go = slotOf (slots T s val') go := by
  by_cases hg : go ∈ s.names
  · rw [slotOf_structOf hnd hg, slotOf_structOf hnd hg, h]
  · rw [slotOf_out hg, slotOf_out hg]

theorem encodeFields_congr {fields : List Field} {fs fs' : List Slot} (h : ∀ f ∈ fields, slotOf fs f.go = slotOf fs' f.go) :
    encodeFields fields fs = encodeFields fields fs' := by
  induction fields with
  | nil => rfl
  | cons f fields ih =>
    simp only [encodeFields]
    rw [h f List.mem_cons_self, ih (fun g hg => h g (List.mem_cons_of_mem _ hg))]

theorem encodeFields_append {a b : List Field} {fs : List Slot} {ms : List (String × Any)} :
    encodeFields (a ++ b) fs = some ms ↔
      ∃ m1 m2, encodeFields a fs = some m1 ∧ encodeFields b fs = some m2 ∧ ms = m1 ++ m2 := by
  induction a generalizing ms with
  | nil => simp [encodeFields]
  | cons f a ih =>
    simp only [List.cons_append, encodeFields]
    split
    · simp
    · split
      · exact ih
      · rename_i slot hs ho
        cases hj : slot.enc f.ty with
        | none => simp
        | some j =>
          cases hr : encodeFields (a ++ b) fs with
          | none =>
            cases ha : encodeFields a fs with
            | none => simp
            | some m1 =>
              cases hb : encodeFields b fs with
              | none => simp
              | some m2 =>
                have := (ih (ms := m1 ++ m2)).2 ⟨m1, m2, ha, hb, rfl⟩
                rw [hr] at this; cases this
          | some ms' =>
            obtain ⟨m1, m2, h1, h2, rfl⟩ := ih.1 hr
            rw [h1]
            simp only [Option.some.injEq]
            constructor
            · rintro rfl; exact ⟨_, m2, rfl, h2, rfl⟩
            · rintro ⟨_, m2', rfl, h2', rfl⟩
              rw [h2] at h2'; cases h2'; rfl

theorem encodeFields_one {s : Struct} (hnd : s.names.Nodup) {f : Field} (hf : f ∈ s.fields) {val : String → Val}
    {g : List (String × Any)} : encodeFields [f] (slots T s val) = some g ↔
      (omitted f (val f.go) = true ∧ g = []) ∨
        (omitted f (val f.go) = false ∧ ∃ j, encode T f.ty (val f.go) = some j ∧ g = [(f.key, j)]) := by
  simp only [encodeFields]
  rw [slotOf_structOf hnd (field_name hf)]
  show (if omitted f (val f.go) = true then some [] else match encode T f.ty (val f.go), some [] with
    | some j, some ms => some ((f.key, j) :: ms)
    | _, _ => none) = some g ↔ _
  by_cases ho : omitted f (val f.go) = true
  · rw [if_pos ho]; simp [ho, eq_comm]
  · rw [if_neg ho]
    have ho : omitted f (val f.go) = false := by simpa using ho
    cases hj : encode T f.ty (val f.go) with
    | none => simp [ho]
    | some j => simp [ho, eq_comm]

theorem encodeFields_split {s : Struct} (hnd : s.names.Nodup) {val : String → Val} {f : Field} (hf : f ∈ s.fields)
    {ms : List (String × Any)} (h : encodeFields s.fields (slots T s val) = some ms) :
    ∃ pre post g, ((omitted f (val f.go) = true ∧ g = []) ∨
        (omitted f (val f.go) = false ∧ ∃ j, encode T f.ty (val f.go) = some j ∧ g = [(f.key, j)])) ∧
      ms = pre ++ g ++ post ∧ ∀ w g', ((omitted f w = true ∧ g' = []) ∨
          (omitted f w = false ∧ ∃ j, encode T f.ty w = some j ∧ g' = [(f.key, j)])) →
        encodeFields s.fields (slots T s (upd val f.go w)) = some (pre ++ g' ++ post) := by
  obtain ⟨A, C, e⟩ := List.append_of_mem hf
  have hfnd : (s.fields.map Field.go).Nodup := by
    unfold Struct.names at hnd
    simp only [List.append_assoc] at hnd
    exact (List.nodup_append.1 hnd).1
  rw [e, List.map_append, List.map_cons] at hfnd
  have hA : ∀ x ∈ A, x.go ≠ f.go := by
    intro x hx ex
    have := (List.nodup_append.1 hfnd).2.2 x.go (List.mem_map_of_mem hx) f.go List.mem_cons_self
    exact this ex
  have hC : ∀ x ∈ C, x.go ≠ f.go := by
    intro x hx ex
    have := (List.nodup_cons.1 (List.nodup_append.1 hfnd).2.1).1
    exact this (ex ▸ List.mem_map_of_mem hx)
  have same : ∀ (w : Val) (l : List Field), (∀ x ∈ l, x.go ≠ f.go) →
      encodeFields l (slots T s (upd val f.go w)) = encodeFields l (slots T s val) := fun w l hl =>
    encodeFields_congr (fun x hx => slots_congr hnd (by simp [upd, hl x hx]))
  have e' : s.fields = A ++ ([f] ++ C) := e
  rw [e'] at h ⊢
  obtain ⟨m1, m2, h1, h2, rfl⟩ := encodeFields_append.1 h
  obtain ⟨g, m3, h3, h4, rfl⟩ := encodeFields_append.1 h2
  refine ⟨m1, m3, g, (encodeFields_one hnd hf).1 h3, by simp, fun w g' hw => ?_⟩
  rw [List.append_assoc]
  refine encodeFields_append.2 ⟨m1, g' ++ m3, (same w A hA).trans h1, ?_, rfl⟩
  refine encodeFields_append.2 ⟨g', m3, ?_, (same w C hC).trans h4, rfl⟩
  refine (encodeFields_one hnd hf).2 ?_
  simpa [upd] using hw

/-- What is checked of the parts of a struct type. -/
structure PartsOk (s : Struct) : Prop where
  nodup : s.parts.Nodup
  fields : s.fields ≠ [] → .fields ∈ s.parts
  hidden : ∀ h ∈ s.hidden, .hidden h.go ∈ s.parts ∧ hiddenTy s h.go = some h.ty
  only : ∀ go, .hidden go ∈ s.parts → go ∈ s.hidden.map Hidden.go
  apart : ∀ f ∈ s.fields, f.go ∉ s.hidden.map Hidden.go

def partsOk (s : Struct) : Bool :=
  decide s.parts.Nodup && (s.fields == [] || s.parts.contains .fields) &&
    s.hidden.all (fun h => s.parts.contains (.hidden h.go) && hiddenTy s h.go == some h.ty) &&
    s.parts.all (fun p => match p with
      | .hidden go => (s.hidden.map Hidden.go).contains go
      | _ => true) &&
    s.fields.all (fun f => !(s.hidden.map Hidden.go).contains f.go)

theorem partsOk_of {s : Struct} (h : partsOk s = true) : PartsOk s := by
  simp only [partsOk, Bool.and_eq_true, Bool.or_eq_true, decide_eq_true_eq, beq_iff_eq, List.all_eq_true,
    Bool.not_eq_true', List.contains_eq_mem, decide_eq_false_iff_not] at h
  obtain ⟨⟨⟨⟨h1, h2⟩, h3⟩, h4⟩, h5⟩ := h
  refine ⟨h1, fun hne => h2.resolve_left hne, h3, fun go hgo => ?_, h5⟩
  simpa using h4 _ hgo

/-- The part that a field belongs to. -/
theorem split_parts {s : Struct} (hp : PartsOk s) {p : Part} (hin : p ∈ s.parts) :
    ∃ A C, s.parts = A ++ p :: C ∧ p ∉ A ∧ p ∉ C := by
  obtain ⟨A, C, e⟩ := List.append_of_mem hin
  have hnd := hp.nodup
  rw [e] at hnd
  refine ⟨A, C, e, fun h => ?_, (List.nodup_cons.1 (List.nodup_append.1 hnd).2.1).1⟩
  exact (List.nodup_append.1 hnd).2.2 p h p List.mem_cons_self rfl

theorem replace_part {n : String} {s : Struct} (hn : GoMap.get? T n = some (.struct s)) {r : Nat}
    (ho : objTy T (r + 1) (.named n) = true) {val : String → Val} {A C : List Part} {p : Part} (e : s.parts = A ++ p :: C) {j : Any}
    (hj : encode T (.named n) (structOf s val) = some j) :
    ∃ pre post jp, encodePart s (slots T s val) p = some jp ∧ j = .obj (pre ++ objMembers jp ++ post) ∧
      ∀ val', (∀ q ∈ A ++ C, encodePart s (slots T s val') q = encodePart s (slots T s val) q) →
        ∀ jp', encodePart s (slots T s val') p = some jp' →
        encode T (.named n) (structOf s val') = some (.obj (pre ++ objMembers jp' ++ post)) := by
  have hpart : ∀ val q j, q ∈ s.parts → encodePart s (slots T s val) q = some j → IsPart j := by
    intro val q j hq hqj
    refine encodePart_part (fun go ty eq ht v j hvj => ?_) hqj
    simp only [objTy, hn] at ho
    have := List.all_eq_true.mp ho q hq
    rw [eq] at this
    simp only [ht] at this
    exact objTy_part this hvj
  unfold structOf at hj
  rw [encode_struct hn] at hj
  split at hj
  · rename_i js hjs
    have hall : ∀ j ∈ js, IsPart j := by
      intro j hj
      obtain ⟨q, hq, hqj⟩ := mapAll_from hjs j hj
      exact hpart _ q j hq hqj
    rw [unionJ_parts hall] at hj
    rw [e] at hjs
    have hjs := hjs
    rw [show A ++ p :: C = A ++ ([p] ++ C) from rfl, mapAll_append] at hjs
    cases hA : mapAll (encodePart s (slots T s val)) A with
    | none => rw [show mapAll (encodePart s ((s.names.map (fun go => (go, val go))).map (slotFor T))) A = none from hA] at hjs; simp at hjs
    | some a =>
      rw [show mapAll (encodePart s ((s.names.map (fun go => (go, val go))).map (slotFor T))) A = some a from hA,
        mapAll_append] at hjs
      cases hp : encodePart s (slots T s val) p with
      | none =>
        rw [show mapAll (encodePart s ((s.names.map (fun go => (go, val go))).map (slotFor T))) [p] = none by
          simp only [mapAll]; rw [show encodePart s ((s.names.map (fun go => (go, val go))).map (slotFor T)) p = none from hp]] at hjs
        simp at hjs
      | some jp =>
        rw [show mapAll (encodePart s ((s.names.map (fun go => (go, val go))).map (slotFor T))) [p] = some [jp] by
          simp only [mapAll]
          rw [show encodePart s ((s.names.map (fun go => (go, val go))).map (slotFor T)) p = some jp from hp]] at hjs
        cases hC : mapAll (encodePart s (slots T s val)) C with
        | none =>
          rw [show mapAll (encodePart s ((s.names.map (fun go => (go, val go))).map (slotFor T))) C = none from hC] at hjs
          simp at hjs
        | some c =>
          rw [show mapAll (encodePart s ((s.names.map (fun go => (go, val go))).map (slotFor T))) C = some c from hC] at hjs
          simp only [Option.some.injEq] at hjs
          subst hjs
          refine ⟨a.flatMap objMembers, c.flatMap objMembers, jp, rfl, ?_, ?_⟩
          · simp only [Option.some.injEq] at hj
            rw [← hj]
            simp
          · intro val' same jp' hp'
            unfold structOf
            rw [encode_struct hn, e, show A ++ p :: C = A ++ ([p] ++ C) from rfl, mapAll_append, mapAll_append]
            have hA' : mapAll (encodePart s (slots T s val')) A = some a := by
              rw [← hA]; exact mapAll_congr (fun q hq => same q (List.mem_append_left _ hq))
            have hC' : mapAll (encodePart s (slots T s val')) C = some c := by
              rw [← hC]; exact mapAll_congr (fun q hq => same q (List.mem_append_right _ hq))
            have hP' : mapAll (encodePart s (slots T s val')) [p] = some [jp'] := by
              simp only [mapAll]; rw [hp']
            rw [show mapAll (encodePart s ((s.names.map (fun go => (go, val' go))).map (slotFor T))) A = some a from hA',
              show mapAll (encodePart s ((s.names.map (fun go => (go, val' go))).map (slotFor T))) [p] = some [jp'] from hP',
              show mapAll (encodePart s ((s.names.map (fun go => (go, val' go))).map (slotFor T))) C = some c from hC']
            simp only
            rw [unionJ_parts]
            · simp
            · intro j hj
              simp only [List.mem_append, List.mem_singleton] at hj
              rcases hj with hj | rfl | hj
              · exact hall j (by simp [hj])
              · exact hpart _ p _ (by rw [e]; simp) hp'
              · exact hall j (by simp [hj])
  · cases hj

theorem shows_of_fields {s : Struct} {f : Field} (hf : f ∈ s.fields) {v : Val} {g : List (String × Any)}
    (h : (omitted f v = true ∧ g = []) ∨ (omitted f v = false ∧ ∃ j, encode T f.ty v = some j ∧ g = [(f.key, j)])) :
    Shows T s f.go v g := by
  rcases h with ⟨h, rfl⟩ | ⟨h, j, hj, rfl⟩
  · exact .omitted hf rfl h
  · exact .member hf rfl h hj

/-- Replacing the value of a field changes its members and nothing else. -/
theorem shows_step {n : String} {s : Struct} (hn : GoMap.get? T n = some (.struct s)) (hnd : s.names.Nodup) (hp : PartsOk s)
    {r : Nat} (ho : objTy T (r + 1) (.named n) = true) {val : String → Val} {go : String} (hgo : go ∈ s.names) {j : Any}
    (hj : encode T (.named n) (structOf s val) = some j) :
    ∃ pre post g, Shows T s go (val go) g ∧ j = .obj (pre ++ g ++ post) ∧
      ∀ w g', Shows T s go w g' →
        encode T (.named n) (structOf s (upd val go w)) = some (.obj (pre ++ g' ++ post)) := by
  have hmem : (∃ f ∈ s.fields, f.go = go) ∨ ∃ ty, ⟨go, ty⟩ ∈ s.hidden := by
    rw [← members_names] at hgo
    obtain ⟨m, hm, rfl⟩ := List.mem_map.1 hgo
    rcases List.mem_append.1 hm with h | h
    · obtain ⟨f, hf, rfl⟩ := List.mem_map.1 h; exact .inl ⟨f, hf, rfl⟩
    · obtain ⟨f, hf, rfl⟩ := List.mem_map.1 h; exact .inr ⟨f.ty, hf⟩
  rcases hmem with ⟨f, hf, rfl⟩ | ⟨ty, hty⟩
  · obtain ⟨A, C, e, hA, hC⟩ := split_parts hp (hp.fields (List.ne_nil_of_mem hf))
    have same : ∀ w, ∀ q ∈ A ++ C, encodePart s (slots T s (upd val f.go w)) q = encodePart s (slots T s val) q := by
      intro w q hq
      have hqs : q ∈ s.parts := by
        rw [e]
        rcases List.mem_append.1 hq with h | h
        · exact List.mem_append_left _ h
        · exact List.mem_append_right _ (List.mem_cons_of_mem _ h)
      cases q with
      | consts cs => rfl
      | fields =>
        rcases List.mem_append.1 hq with h | h
        · exact absurd h hA
        · exact absurd h hC
      | hidden g =>
        have hne : g ≠ f.go := fun eg => hp.apart f hf (eg ▸ hp.only g hqs)
        simp only [encodePart]
        rw [slots_congr hnd (val' := val) (by simp [upd, hne])]
    obtain ⟨pre, post, jp, h1, h2, h3⟩ := replace_part hn ho e hj
    simp only [encodePart] at h1
    obtain ⟨ms, hms, rfl⟩ := Option.map_eq_some_iff.1 h1
    obtain ⟨pre', post', g, hg, rfl, hnew⟩ := encodeFields_split hnd hf hms
    refine ⟨pre ++ pre', post' ++ post, g, shows_of_fields hf hg, ?_, fun w g' hw => ?_⟩
    · rw [h2]; simp [objMembers]
    · have hw : (omitted f w = true ∧ g' = []) ∨
          (omitted f w = false ∧ ∃ j, encode T f.ty w = some j ∧ g' = [(f.key, j)]) := by
        have uniq : ∀ f' ∈ s.fields, f'.go = f.go → f' = f := by
          intro f' hf' eg
          have hfnd : (s.fields.map Field.go).Nodup := by
            unfold Struct.names at hnd
            simp only [List.append_assoc] at hnd
            exact (List.nodup_append.1 hnd).1
          exact inj_of_nodup hfnd hf' hf eg
        cases hw with
        | omitted hf' hg h => rw [uniq _ hf' hg] at h; exact .inl ⟨h, rfl⟩
        | member hf' hg h hj =>
          have := uniq _ hf' hg
          subst this
          exact .inr ⟨h, _, hj, rfl⟩
        | absent hf' _ => exact absurd (List.mem_map.2 ⟨_, hf', rfl⟩) (hp.apart f hf)
        | inline hf' _ => exact absurd (List.mem_map.2 ⟨_, hf', rfl⟩) (hp.apart f hf)
      rw [h3 _ (same w) (.obj (pre' ++ g' ++ post')) (by simp only [encodePart]; rw [hnew w g' hw]; rfl)]
      simp [objMembers]
  · obtain ⟨hin, hht⟩ := hp.hidden _ hty
    simp only at hin hht
    obtain ⟨A, C, e, hA, hC⟩ := split_parts hp hin
    have same : ∀ w, ∀ q ∈ A ++ C, encodePart s (slots T s (upd val go w)) q = encodePart s (slots T s val) q := by
      intro w q hq
      cases q with
      | consts cs => rfl
      | fields =>
        simp only [encodePart]
        rw [encodeFields_congr (fun f hf => slots_congr hnd (val' := val) ?_)]
        have : f.go ≠ go := fun eg => hp.apart f hf (eg ▸ List.mem_map.2 ⟨_, hty, rfl⟩)
        simp [upd, this]
      | hidden g =>
        have hne : g ≠ go := by
          rintro rfl
          rcases List.mem_append.1 hq with h | h
          · exact hA h
          · exact hC h
        simp only [encodePart]
        rw [slots_congr hnd (val' := val) (by simp [upd, hne])]
    obtain ⟨pre, post, jp, h1, h2, h3⟩ := replace_part hn ho e hj
    have h1' : encode T ty (val go) = some jp := (encodePart_hidden hnd hgo hht).symm.trans h1
    have hobj : ∀ v j, encode T ty v = some j → IsPart j := by
      intro v j hvj
      simp only [objTy, hn] at ho
      have := List.all_eq_true.mp ho _ hin
      simp only [hht] at this
      exact objTy_part this hvj
    refine ⟨pre, post, objMembers jp, ?_, h2, fun w g' hw => ?_⟩
    · rcases hobj _ _ h1' with rfl | ⟨ms, rfl⟩
      · exact .absent hty h1'
      · exact .inline hty h1'
    · have tyEq : ∀ ty', ⟨go, ty'⟩ ∈ s.hidden → ty' = ty := by
        intro ty' h'
        have := (hp.hidden _ h').2
        simp only at this
        rw [hht] at this
        exact (Option.some.inj this).symm
      have hw : ∃ jw, encode T ty w = some jw ∧ objMembers jw = g' := by
        cases hw with
        | omitted hf hg _ => exact absurd (hg ▸ List.mem_map.2 ⟨_, hty, rfl⟩) (hp.apart _ hf)
        | member hf hg _ _ => exact absurd (hg ▸ List.mem_map.2 ⟨_, hty, rfl⟩) (hp.apart _ hf)
        | absent hf hj => rw [tyEq _ hf] at hj; exact ⟨_, hj, rfl⟩
        | inline hf hj => rw [tyEq _ hf] at hj; exact ⟨_, hj, rfl⟩
      obtain ⟨jw, hjw, rfl⟩ := hw
      rw [h3 _ (same w) jw]
      refine (encodePart_hidden hnd hgo hht).trans ?_
      simpa [upd] using hjw

/-- A value that can be written shows. -/
theorem shows_exists {n : String} {s : Struct} (hn : GoMap.get? T n = some (.struct s)) (hp : PartsOk s)
    {r : Nat} (ho : objTy T (r + 1) (.named n) = true) {m : String × Ty} (hm : m ∈ s.members) {w : Val} {j : Any}
    (hj : encode T m.2 w = some j) : ∃ g, Shows T s m.1 w g := by
  rcases List.mem_append.1 hm with h | h
  · obtain ⟨f, hf, rfl⟩ := List.mem_map.1 h
    cases ho : omitted f w with
    | true => exact ⟨_, .omitted hf rfl ho⟩
    | false => exact ⟨_, .member hf rfl ho hj⟩
  · obtain ⟨f, hf, rfl⟩ := List.mem_map.1 h
    have hin := hp.hidden _ hf
    simp only [objTy, hn] at ho
    have := List.all_eq_true.mp ho _ hin.1
    simp only [hin.2] at this
    rcases objTy_part this hj with rfl | ⟨ms, rfl⟩
    · exact ⟨_, .absent hf hj⟩
    · exact ⟨_, .inline hf hj⟩

/-- A field that shows could be written, or is an empty or nil one. -/
theorem shows_items {s : Struct} (hnd : s.names.Nodup) {m : String × Ty} (hm : m ∈ s.members) {t : Ty} (ht : m.2 = .map t)
    {old : Val} (ho : Of T (.map t) old) {g : List (String × Any)} (hg : Shows T s m.1 old g) :
    ∀ p ∈ old.items, ∃ j, encode T t p.2 = some j := by
  have key : ∀ j, encode T (.map t) old = some j → ∀ p ∈ old.items, ∃ j, encode T t p.2 = some j := by
    intro j hj p hp
    cases old with
    | map es =>
      rw [encode_map] at hj
      obtain ⟨l, hl, _⟩ := Option.map_eq_some_iff.1 hj
      cases hpe : encode T t p.2 with
      | some j => exact ⟨j, rfl⟩
      | none =>
        rw [mapAll_none (l := es) (x := p) hp (by rw [hpe]; rfl)] at hl
        cases hl
    | _ => cases hp
  have tyOf : ∀ ty', (m.1, ty') ∈ s.members → ty' = .map t := by
    intro ty' h'
    have := member_ty hnd hm h' rfl
    rw [← ht, this]
  cases hg with
  | @omitted f hf hg h =>
    have := tyOf f.ty (by rw [← hg]; exact List.mem_append_left _ (List.mem_map.2 ⟨f, hf, rfl⟩))
    unfold omitted at h
    rw [this] at h
    cases ho with
    | nilMap => intro p hp; cases hp
    | map _ _ =>
      simp only [Bool.and_eq_true, isEmpty, List.isEmpty_iff] at h
      intro p hp
      rw [h.2] at hp
      cases hp
  | @member f j hf hg h hj =>
    have := tyOf f.ty (by rw [← hg]; exact List.mem_append_left _ (List.mem_map.2 ⟨f, hf, rfl⟩))
    rw [this] at hj
    exact key _ hj
  | @absent ty' hf hj =>
    rw [tyOf ty' (List.mem_append_right _ (List.mem_map.2 ⟨_, hf, rfl⟩))] at hj
    exact key _ hj
  | @inline ty' _ hf hj =>
    rw [tyOf ty' (List.mem_append_right _ (List.mem_map.2 ⟨_, hf, rfl⟩))] at hj
    exact key _ hj

/-- The JSON after a call. -/
theorem call_json {B : GoMap (List Builder)} (hf : FineAll T B) (hfr : FreshOk T) {n : String} {s : Struct}
    (hn : GoMap.get? T n = some (.struct s)) (hp : PartsOk s) {r : Nat} (ho : objTy T (r + 1) (.named n) = true) {c : Call}
    (hc : CallOk T B n c) {v : Val} (hv : Of T (.named n) v) {j : Any} (hj : encode T (.named n) v = some j) :
    ∃ pre post old, Shows T s c.m.field (v.field c.m.field) old ∧ j = .obj (pre ++ old ++ post) ∧
      (∀ new, Shows T s c.m.field ((c.run T v).field c.m.field) new →
        encode T (.named n) (c.run T v) = some (.obj (pre ++ new ++ post))) ∧
      (c.m.kind ≠ .ens → ∀ jv, encode T c.m.arg c.val = some jv →
        ∃ new, Shows T s c.m.field ((c.run T v).field c.m.field) new) := by
  obtain ⟨val, rfl, hval⟩ := of_struct_inv hn hv
  obtain ⟨hin, hrun, _⟩ := run_structOf hf hfr hn hc hval
  obtain ⟨⟨bs, hbs, hb⟩, hcv⟩ := hc
  obtain ⟨s', hs', hfn, m, hm, hmb⟩ := method_field hf hbs hb
  rw [hn] at hs'; cases hs'
  obtain ⟨hfield, _, hcases⟩ := methodsOf_field hmb
  obtain ⟨pre, post, g, h1, h2, h3⟩ := shows_step hn hfn.nodup hp ho hin hj
  rw [hrun, field_structOf hin, field_structOf hin]
  simp only [upd, if_pos]
  refine ⟨pre, post, g, h1, h2, fun new hnew => h3 _ _ hnew, fun hk jv hjv => ?_⟩
  rw [hfield] at h1 ⊢
  rcases hcases with ⟨hk', ht⟩ | ⟨hk', ht⟩ | ⟨hk', ht⟩ | ⟨hk', _⟩
  · refine shows_exists hn hp ho hm (j := jv) ?_
    simp only [effect, hk', ht]; exact hjv
  · refine shows_exists hn hp ho hm (j := jv) ?_
    simp only [effect, hk', ht]
    rw [encode_ptr T (of_solid (hfn.solid m hm _ ht) (hcv hk))]
    exact hjv
  · have hold := hval m hm
    rw [ht] at hold
    have hit := shows_items hfn.nodup hm ht hold h1
    have hmk : MapOk T c.m.arg (effect T c (val m.1)) := by
      refine .inr ⟨_, by simp only [effect, hk']; rfl, fun p hp => ?_⟩
      rcases (set_nodup (items_of hold).1 c.key c.val).2 p hp with rfl | hp
      · exact ⟨jv, hjv⟩
      · exact hit p hp
    obtain ⟨jm, hjm, _⟩ := encode_mapOk hmk
    exact shows_exists hn hp ho hm (j := jm) (by rw [ht]; exact hjm)
  · exact absurd hk' hk

end Verif.Build
