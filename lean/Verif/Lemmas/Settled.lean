import Verif.Spec.Order
import Verif.Lemmas.LoadTables
import Verif.Lemmas.AgainMain
import Verif.Lemmas.MetaWritten30

/-! Saving several times: what is read back from a document of 3.0 has its fields that repeat others filled in. -/

namespace Verif
open Codec Spec

variable {N : Nums} {Q : List (String × Val) → Prop}

/-! ## All structs of a value that was read were read -/

def everyCheck (bad : List String) (n : String) (s : Struct) : Bool :=
  bad.contains n || n == "NonBearer" || (decide s.names.Nodup && (s.decodes || s.fields.isEmpty) &&
    s.fields.all (fun f => tyOk bad f.ty) && s.patterns.all (fun q => tyOk bad q.ty) &&
    s.embeds.all (fun e => tyOk bad e.ty) && s.oneOf.all (fun e => tyOk bad e.ty) &&
    (match s.additional with
      | some a => tyOk bad a.ty
      | none => true) && decide (s.names = V30.sParameter.names → s = V30.sParameter))

def everyChecks (bad : List String) : Bool := V30.table.all (fun p => match p.2 with
  | .struct s => everyCheck bad p.1 s
  | _ => true)

theorem everyChecks30 : everyChecks [] = true := by decide +kernel

theorem everyCheck_iff {bad : List String} (h : everyChecks bad = true) {n : String} {s : Struct}
    (hg : GoMap.get? V30.table n = some (.struct s)) (hbad : n ∉ bad) (hn : n ≠ "NonBearer") :
    s.names.Nodup ∧ (s.decodes = true ∨ s.fields = []) ∧ (∀ f ∈ s.fields, tyOk bad f.ty = true) ∧
    (∀ q ∈ s.patterns, tyOk bad q.ty = true) ∧ (∀ e ∈ s.embeds, tyOk bad e.ty = true) ∧
    (∀ e ∈ s.oneOf, tyOk bad e.ty = true) ∧ (∀ a, s.additional = some a → tyOk bad a.ty = true) ∧
    (s.names = V30.sParameter.names → s = V30.sParameter) := by
  have h := table_all (chk := everyCheck bad) h hg
  simp only [everyCheck, Bool.or_eq_true, beq_iff_eq, Bool.and_eq_true, decide_eq_true_eq, List.isEmpty_iff,
    List.all_eq_true, List.contains_iff_mem] at h
  rcases h with (h | h) | ⟨⟨⟨⟨⟨⟨⟨h1, h2⟩, h3⟩, h4⟩, h5⟩, h6⟩, h7⟩, h8⟩
  · exact absurd h hbad
  · exact absurd h hn
  · refine ⟨h1, h2, h3, h4, h5, h6, ?_, h8⟩
    intro a ha
    rw [ha] at h7
    exact h7

theorem zero_everywhere (h0 : Q []) (T : Table) (t : Ty) : Everywhere Q (zero T t) := by
  intro gs hp
  unfold zero at hp
  split at hp <;> (try split at hp) <;> cases hp
  · exact h0
  · rename_i hx _; cases hx

theorem madeMap_every {es : List (String × Val)} (h : ∀ p ∈ es, Everywhere Q p.2) : Everywhere Q (madeMap es) := by
  cases es with
  | nil => exact everywhere_nil
  | cons e es => exact everywhere_map h

theorem readAs_trans {T : Table} {t1 t2 t3 : Ty} {j1 j2 j3 : Any} (h1 : ReadAs T t1 j1 t2 j2) (h2 : ReadAs T t2 j2 t3 j3) :
    ReadAs T t1 j1 t3 j3 := by
  induction h1 with
  | self => exact h2
  | ptr _ ih => exact .ptr (ih h2)
  | elem hx _ ih => exact .elem hx (ih h2)
  | entry hx _ ih => exact .entry hx (ih h2)
  | alternative hs ht _ ih => exact .alternative hs ht (ih h2)
  | field hs hx hf _ ih => exact .field hs hx hf (ih h2)
  | pattern hs hx hq hk _ ih => exact .pattern hs hx hq hk (ih h2)
  | additional hs hx ha hk _ ih => exact .additional hs hx ha hk (ih h2)

theorem decode_step {ty0 : Ty} {j0 : Any} {bad : List String} (hC : everyChecks bad = true) (h0 : Q [])
    (hB : "NonBearer" ∈ bad ∨ Q [("Scheme", .nil)])
    (hQ : ∀ n s j M val, GoMap.get? V30.table n = some (.struct s) → n ∉ bad → n ≠ "NonBearer" → ReadAs V30.table ty0 j0 (.named n) j →
      Loaded V30.table N s j M val → Q (s.names.map (fun go => (go, val go)))) {j : Any}
    (ihA : ∀ xs, j = .arr xs → ∀ x ∈ xs, ∀ ty v, tyOk bad ty = true → ReadAs V30.table ty0 j0 ty x →
      decode V30.table N ty x = some v → Everywhere Q v)
    (ihO : ∀ M, j = .obj M → ∀ p ∈ M, ∀ ty v, tyOk bad ty = true → ReadAs V30.table ty0 j0 ty p.2 →
      decode V30.table N ty p.2 = some v → Everywhere Q v) :
    ∀ r ty, rankedAt V30.table r ty = true → tyOk bad ty = true → ReadAs V30.table ty0 j0 ty j →
      ∀ v, decode V30.table N ty j = some v → Everywhere Q v := by
  intro r
  have hT := ranked30
  induction r with
  | zero => intro ty h; simp [rankedAt] at h
  | succ r ihr =>
    intro ty hr hty hra v hd
    cases ty with
    | any =>
      rw [decode_any, Option.map_eq_some_iff] at hd
      obtain ⟨a, ha, rfl⟩ := hd
      exact everywhere_any
    | bool => rw [decode_bool] at hd; split at hd <;> cases hd <;> (intro gs hp; cases hp)
    | str => rw [decode_str] at hd; split at hd <;> cases hd <;> (intro gs hp; cases hp)
    | int =>
      rw [decode_int] at hd
      split at hd
      · rw [Option.map_eq_some_iff] at hd
        obtain ⟨a, ha, rfl⟩ := hd
        intro gs hp; cases hp
      · cases hd; intro gs hp; cases hp
      · cases hd
    | float =>
      rw [decode_float] at hd
      split at hd
      · rw [Option.map_eq_some_iff] at hd
        obtain ⟨a, ha, rfl⟩ := hd
        intro gs hp; cases hp
      · cases hd; intro gs hp; cases hp
      · cases hd
    | ptr t =>
      simp only [tyOk, Bool.and_eq_true] at hty
      by_cases hj : j = .null
      · subst hj
        rw [decode_ptr_null] at hd
        cases hd
        exact everywhere_nil
      · have hd' : decode V30.table N t j = some v := by
          rw [decode_ptr hT hty.1] at hd
          cases j <;> first | exact hd | exact absurd rfl hj
        exact ihr t (by simpa [rankedAt] using hr) hty.2 (readAs_trans hra (.ptr .self)) v hd'
    | slice t =>
      rw [decode_slice] at hd
      split at hd
      · rename_i xs
        rw [Option.map_eq_some_iff] at hd
        obtain ⟨vs, hvs, rfl⟩ := hd
        apply everywhere_list
        intro x hx
        obtain ⟨y, hy, e⟩ := mapAll_from hvs x hx
        exact ihA xs rfl y hy t x hty (readAs_trans hra (.elem hy .self)) e
      · cases hd; exact everywhere_nil
      · cases hd
    | map t =>
      rw [decode_map] at hd
      split at hd
      · rename_i ms
        rw [Option.map_eq_some_iff] at hd
        obtain ⟨es, hes, rfl⟩ := hd
        apply everywhere_map
        intro p hp
        obtain ⟨q, hq, e⟩ := mapAll_from hes p (mem_lastWins hp)
        rw [Option.map_eq_some_iff] at e
        obtain ⟨x, hx, rfl⟩ := e
        exact ihO ms rfl q hq t x hty (readAs_trans hra (.entry hq .self)) hx
      · cases hd; exact everywhere_nil
      · cases hd
    | named n =>
      have hnb : n ∉ bad := by simpa [tyOk] using hty
      cases hn : GoMap.get? V30.table n with
      | none => rw [decode_none hn] at hd; cases hd
      | some d =>
        cases d with
        | enum values =>
          rw [decode_enum hn] at hd
          split at hd
          · split at hd <;> cases hd
            exact everywhere_str
          · split at hd <;> cases hd
            exact everywhere_str
          · cases hd
        | struct s =>
          by_cases hb : n = "NonBearer"
          · subst hb
            have : GoMap.get? V30.table "NonBearer" = some (.struct V30.sNonBearer) := by decide +kernel
            rw [this] at hn
            cases hn
            obtain ⟨_, fvals, evals, ovals, rvals, h1, h2, h3, h4, h5, rfl⟩ := (decode_struct_some hT this).1 hd
            cases h1
            cases h2
            cases h3
            cases h5
            refine everywhere_struct (hB.resolve_left hnb) ?_
            intro p hp
            simp only [List.append_nil, List.mem_map] at hp
            obtain ⟨q, hq, rfl⟩ := hp
            apply rememberNull_everywhere
            obtain ⟨f, hf, rfl⟩ := hq
            exact zero_everywhere h0 _ _
          · obtain ⟨c1, c2, c3, c4, c5, c6, c7, _⟩ := everyCheck_iff hC hn hnb hb
            obtain ⟨M, val, rfl, L⟩ := loaded hT hn c1 c2 hd
            have hM : ∀ p ∈ M, ∀ ty v, tyOk bad ty = true → (j = .obj M → ReadAs V30.table (.named n) (.obj M) ty p.2) →
                decode V30.table N ty p.2 = some v → Everywhere Q v := by
              rcases L.members with e | ⟨_, e⟩
              · subst e
                exact fun p hp ty v ht hR => ihO M rfl p hp ty v ht (readAs_trans hra (hR rfl))
              · rw [e]; intro p hp; cases hp
            have hes : ∀ (es : List (String × Val)) (t : Ty), tyOk bad t = true →
                (∀ k x, (k, x) ∈ es → ∃ a, (k, a) ∈ M ∧ ReadAs V30.table (.named n) (.obj M) t a ∧
                  decode V30.table N t a = some x) → Everywhere Q (madeMap es) := by
              intro es t ht h
              apply madeMap_every
              rintro ⟨k, x⟩ hp
              obtain ⟨a, ha, hR, e⟩ := h k x hp
              exact hM _ ha t x ht (fun _ => hR) e
            refine everywhere_struct (hQ n s j M val hn hnb hb hra L) ?_
            intro p hp
            obtain ⟨go, hgo, rfl⟩ := List.mem_map.1 hp
            unfold Struct.names at hgo
            simp only [rankedAt, hn, Bool.and_eq_true, List.all_eq_true] at hr
            simp only [List.mem_append, List.mem_map] at hgo
            rcases hgo with (((⟨f, hf, rfl⟩ | ⟨e, he, rfl⟩) | ⟨e, he, rfl⟩) | ⟨q, hq, rfl⟩) | hgo
            · obtain ⟨rd, hr, e⟩ := L.fields f hf
              simp only
              rw [e]
              apply rememberNull_everywhere
              rcases hr with ⟨_, ⟨_, rfl⟩ | ⟨M1, p, M2, e, hk, hd, _⟩⟩
              · exact zero_everywhere h0 _ _
              · have hp : p ∈ M := by rw [e]; simp
                exact hM p hp f.ty rd (c3 f hf) (fun _ => .field hn hp hk .self) hd
            · exact ihr e.ty (hr.1.2 e he) (c5 e he) (readAs_trans hra (.alternative hn (.inr ⟨e, by simp [he], rfl⟩) .self)) _ (L.embeds e he)
            · rcases L.oneOf with h | ⟨e', he', w, hw, _, ha⟩
              · rw [h] at he; cases he
              · simp only
                rw [ha e he]
                split
                · exact ihr e'.ty (hr.2 e' he') (c6 e' he')
                    (readAs_trans hra (.alternative hn (.inr ⟨e', by simp [he'], rfl⟩) .self)) _ hw
                · exact everywhere_nil
            · obtain ⟨es, e, _, h⟩ := L.patterns q hq
              simp only
              rw [e]
              exact hes es q.ty (c4 q hq) (fun k x hx => by
                obtain ⟨hk, a, ha, hd⟩ := h k x hx
                exact ⟨a, ha, .pattern hn ha hq hk .self, hd⟩)
            · cases ha : s.additional with
              | none => rw [ha] at hgo; cases hgo
              | some a =>
                rw [ha] at hgo
                cases List.mem_singleton.1 hgo
                obtain ⟨es, e, _, h⟩ := L.additional a ha
                simp only
                rw [e]
                exact hes es a.ty (c7 a ha) (fun k x hx => by
                  obtain ⟨hk, b, hb, hd⟩ := h k x hx
                  exact ⟨b, hb, .additional hn hb ha hk .self, hd⟩)

theorem decode_every_from {ty0 : Ty} {j0 : Any} {bad : List String} (hC : everyChecks bad = true) (h0 : Q [])
    (hB : "NonBearer" ∈ bad ∨ Q [("Scheme", .nil)])
    (hQ : ∀ n s j M val, GoMap.get? V30.table n = some (.struct s) → n ∉ bad → n ≠ "NonBearer" → ReadAs V30.table ty0 j0 (.named n) j →
      Loaded V30.table N s j M val → Q (s.names.map (fun go => (go, val go)))) (j : Any) (ty : Ty) (v : Val)
    (ht : tyOk bad ty = true) (hr : ReadAs V30.table ty0 j0 ty j)
    (hd : decode V30.table N ty j = some v) : Everywhere Q v := by
  refine decode_step hC h0 hB hQ ?_ ?_ 11 ty (rankedAt_ok ranked30 ht) ht hr v hd
  · intro xs e x hx ty v ht hr hd
    have : sizeOf x < sizeOf j := by
      have := List.sizeOf_lt_of_mem hx
      rw [e]; simp; omega
    exact decode_every_from hC h0 hB hQ x ty v ht hr hd
  · intro M e p hp ty v ht hr hd
    have : sizeOf p.2 < sizeOf j := by
      have := List.sizeOf_lt_of_mem hp
      obtain ⟨k, x⟩ := p
      simp only [Prod.mk.sizeOf_spec] at this
      rw [e]; simp; omega
    exact decode_every_from hC h0 hB hQ p.2 ty v ht hr hd
termination_by sizeOf j

theorem decode_every {bad : List String} (hC : everyChecks bad = true) (h0 : Q [])
    (hB : "NonBearer" ∈ bad ∨ Q [("Scheme", .nil)])
    (hQ : ∀ n s j M val, GoMap.get? V30.table n = some (.struct s) → n ∉ bad → n ≠ "NonBearer" → Loaded V30.table N s j M val →
      Q (s.names.map (fun go => (go, val go)))) (j : Any) (ty : Ty) (v : Val) (ht : tyOk bad ty = true)
    (hd : decode V30.table N ty j = some v) : Everywhere Q v :=
  decode_every_from hC h0 hB (fun n s j M val hn hb hnb _ => hQ n s j M val hn hb hnb) j ty v ht .self hd

/-- The location of a parameter that was read is filled in. -/
theorem decode_located {j : Any} {ty : Ty} {v : Val} (ht : tyOk [] ty = true) (hd : decode V30.table N ty j = some v) :
    Everywhere located v := by
  refine decode_every everyChecks30 ?_ (.inr ?_) ?_ j ty v ht hd
  · intro e; exact absurd e (by decide)
  · intro e; exact absurd e (by decide)
  · intro n s j M val hn hnb hb L e
    obtain ⟨_, _, _, _, _, _, _, h8⟩ := everyCheck_iff everyChecks30 hn hnb hb
    rw [names_of] at e
    have := h8 e
    subst this
    rw [fieldIn_of val (by decide)]
    have hj : j = .obj M := by
      rcases L.members with h | ⟨_, h⟩
      · exact h
      · have := L.require "name" (by decide)
        rw [h] at this
        cases this
    have hl := L.embeds ⟨"Location", .ptr (.named "ParameterLocation")⟩ (by decide)
    simp only at hl
    rw [hj, decode_ptr_obj ranked30 rfl] at hl
    exact (decode_ne_nil ranked30 rfl (by intro h; cases h) hl).1

/-! ## Schemas and media types -/

/-- The types that occur in schemas and media types. -/
def schemaTypes : List String := ["SchemaOrRef", "MediaType", "Schema", "SchemaReference", "ExampleOrRef", "Encoding",
  "SchemaType", "SchemaAdditionalProperties", "Discriminator", "ExternalDocumentation", "XML", "ExampleReference", "Example",
  "Header", "EncodingStyle"]

/-- The other types. -/
def otherTypes : List String := (V30.table.map Prod.fst).filter (fun n => !schemaTypes.contains n)

theorem everyChecksSchema : everyChecks otherTypes = true := by decide +kernel

theorem checkSchema : V30.table.all (fun p => match p.2 with
    | .struct s => loadCheck otherTypes [] p.1 s && s.exactlyOne.isNone && (s.nots.isEmpty || otherTypes.contains p.1) &&
      (otherTypes.contains p.1 || (derived.all (fun go => !s.names.contains go) && s.names != V30.sParameter.names &&
        s.names != V30.sHTTPSecurityScheme.names))
    | _ => true) = true := by decide +kernel

theorem checkSchema_iff {n : String} {s : Struct} (hn : GoMap.get? V30.table n = some (.struct s)) (hb : n ∉ otherTypes) :
    loadCheck otherTypes [] n s = true ∧ s.exactlyOne = none ∧ s.nots = [] ∧ (∀ go ∈ derived, go ∉ s.names) ∧
      s.names ≠ V30.sParameter.names ∧ s.names ≠ V30.sHTTPSecurityScheme.names := by
  have h := table_all (chk := fun n s => loadCheck otherTypes [] n s && s.exactlyOne.isNone &&
    (s.nots.isEmpty || otherTypes.contains n) &&
      (otherTypes.contains n || (derived.all (fun go => !s.names.contains go) && s.names != V30.sParameter.names &&
        s.names != V30.sHTTPSecurityScheme.names))) checkSchema hn
  have e : otherTypes.contains n = false := by
    cases h : otherTypes.contains n with
    | false => rfl
    | true => exact absurd (List.contains_iff_mem.1 h) hb
  simp only [Bool.and_eq_true, e, Bool.or_false, Bool.false_or, Option.isNone_iff_eq_none, List.isEmpty_iff,
    List.all_eq_true, bne_iff_ne, Bool.not_eq_eq_eq_not] at h
  obtain ⟨⟨⟨h1, h2⟩, h3⟩, ⟨h4, h5⟩, h6⟩ := h
  refine ⟨h1, h2, h3, ?_, h5, h6⟩
  intro go hgo hm
  have := h4 go hgo
  rw [List.contains_iff_mem.2 hm] at this
  cases this

theorem loadFactsSchema (hN : NumsOk N) : LoadFacts V30.table N ok30 (fun _ => True) otherTypes [] where
  ranked := ranked30
  nums := hN
  nonBearer := by decide +kernel
  base := by
    intro n s hn hb
    rcases (loadCheck_iff (checkSchema_iff hn hb).1).1 with h | h
    · exact absurd h hb
    · exact base_of_check h
  structs := by
    intro n s hn hb hsp
    rcases (loadCheck_iff (checkSchema_iff hn hb).1).2.1 with h | h | h
    · exact absurd h hb
    · exact absurd h hsp
    · exact h
  kinds := by
    intro n s hn hb hsp
    exact kind_of_check (loadCheck_iff (checkSchema_iff hn hb).1).2.2.1 hb hsp
  lower := (loadFacts30 hN).lower
  one := by
    intro n s hn hb hsp val _ a b e
    rw [(checkSchema_iff hn hb).2.1] at e
    cases e
  not := by
    intro n s hn hb hsp val j M L _ t ht
    rw [(checkSchema_iff hn hb).2.2.1] at ht
    cases ht
  ok := by intros; trivial
  special := by intro n s hn hsp; cases hsp

/-- A schema or media type that was read can be written. -/
theorem schema_writable (hN : NumsOk N) {j : Any} {ty : Ty} {v : Val} (ht : tyOk otherTypes ty = true)
    (hd : decode V30.table N ty j = some v) : Writable V30.table N ok30 ty v :=
  load (loadFactsSchema hN) j ty v ht hd (fun _ _ => trivial)

/-- There are no parameters or HTTP security schemes in it. -/
theorem schema_every {j : Any} {ty : Ty} {v : Val} (ht : tyOk otherTypes ty = true)
    (hd : decode V30.table N ty j = some v)
    (hQ : ∀ fs : List (String × Val), (∀ go ∈ derived, go ∉ fs.map Prod.fst) → fs.map Prod.fst ≠ V30.sParameter.names →
      fs.map Prod.fst ≠ V30.sHTTPSecurityScheme.names → Q fs) : Everywhere Q v := by
  refine decode_every everyChecksSchema ?_ (.inl (by decide +kernel)) ?_ j ty v ht hd
  · exact hQ [] (by intro go _ h; cases h) (by decide) (by decide)
  · intro n s j M val hn hnb _ L
    obtain ⟨_, _, _, h1, h2, h3⟩ := checkSchema_iff hn hnb
    apply hQ <;> rw [names_of]
    · exact h1
    · exact h2
    · exact h3

theorem schema_noDerived {j : Any} {ty : Ty} {v : Val} (ht : tyOk otherTypes ty = true)
    (hd : decode V30.table N ty j = some v) : Everywhere noDerived v := by
  refine schema_every ht hd ?_
  intro fs h _ _ go hgo
  unfold fieldIn
  cases e : GoMap.get? fs go with
  | none => rfl
  | some x => exact absurd (List.mem_map.2 ⟨_, get?_mem e, rfl⟩) (h go hgo)

/-- What is written for a schema or media type that was read can be read as `interface{}`. -/
theorem schema_any (hN : NumsOk N) (hI : ∀ l, N.i64 l = some l → N.f64 l ≠ none) {j : Any} {ty : Ty} {v : Val}
    (ht : tyOk otherTypes ty = true) (hd : decode V30.table N ty j = some v) :
    ∃ a, encode V30.table ty v = some a ∧ decodeAny N a ≠ none := by
  have hw := schema_writable hN ht hd
  have hr := Meta.writable_wr hI hw (schema_noDerived ht hd)
  obtain ⟨a, ha⟩ := (writable_good (facts30 N) hw).rt.writes
  refine ⟨a, ha, ?_⟩
  have hf := hr.floats
  rw [enc_of ha] at hf
  obtain ⟨b, hb⟩ := decodeAny_literals (N := N) a (fun l hl => Option.ne_none_iff_exists'.1 (hf l hl))
  rw [hb]
  intro h; cases h

/-! ## What is read back -/

/-- The raw copy that a parameter has satisfies a condition, which anything does if there is a parameter without one. -/
def rawIn (R : Any → Prop) (fs : List (String × Val)) : Prop := fs.map Prod.fst = V30.sParameter.names →
  (fieldIn fs "SchemaXORContent" = .nil → ∀ c, R c) ∧
  ∀ b, fieldIn fs "SchemaXORContent" = xorSchema b ∨ fieldIn fs "SchemaXORContent" = xorContent b → R b

/-- Nothing but the style of header and cookie parameters is missing; `lo` says that it is not either. The raw copies satisfy
a condition. -/
def settled (N : Nums) (lo : Prop) (R : Any → Prop) (fs : List (String × Val)) : Prop :=
  clean30 N fs ∧
  (fs.map Prod.fst = V30.sHTTPSecurityScheme.names → fieldIn fs "Bearer" ≠ .nil ∨ fieldIn fs "NonBearer" ≠ .nil) ∧
  (fs.map Prod.fst = V30.sParameter.names →
    fieldIn fs "Location" ≠ .nil ∧
    (lo → fieldIn fs "In" = .str "header" ∨ fieldIn fs "In" = .str "cookie" → fieldIn fs "Style" ≠ .nil) ∧
    ((∃ b, fieldIn fs "SchemaXORContent" = xorSchema b ∧ RawAgain N (.ptr (.named "SchemaOrRef")) (fieldIn fs "Schema") b) ∨
      (∃ b, fieldIn fs "SchemaXORContent" = xorContent b ∧ RawAgain N (.map (.named "MediaType")) (fieldIn fs "Content") b)) ∧
    ∀ b, fieldIn fs "SchemaXORContent" = xorSchema b ∨ fieldIn fs "SchemaXORContent" = xorContent b → R b)

theorem settled_other {lo : Prop} {R : Any → Prop} {fs : List (String × Val)} (h1 : fs.map Prod.fst ≠ V30.sParameter.names)
    (h2 : fs.map Prod.fst ≠ V30.sHTTPSecurityScheme.names) : settled N lo R fs :=
  ⟨fun h => absurd h h1, fun h => absurd h h2, fun h => absurd h h1⟩

theorem settled_small {lo : Prop} {R : Any → Prop} (fs : List (String × Val)) (h : fs.length ≤ 4) : settled N lo R fs := by
  apply settled_other <;> intro e <;> have := congrArg List.length e <;> rw [List.length_map] at this
  · have h13 : 4 < V30.sParameter.names.length := by decide +kernel
    omega
  · have h13 : 4 < V30.sHTTPSecurityScheme.names.length := by decide +kernel
    omega

/-- The structs of 3.0 that have the fields of a parameter or HTTP security scheme. -/
theorem special_names : V30.table.all (fun p => match p.2 with
    | .struct s => p.1 == "Parameter" || p.1 == "HTTPSecurityScheme" ||
      (s.names != V30.sParameter.names && s.names != V30.sHTTPSecurityScheme.names)
    | _ => true) = true := by decide +kernel

theorem plain_names {n : String} {s : Struct} (hn : GoMap.get? V30.table n = some (.struct s))
    (hs : (s.embeds = [] ∧ s.oneOf = []) ∨ s.fields = []) : s.names ≠ V30.sParameter.names ∧ s.names ≠ V30.sHTTPSecurityScheme.names := by
  have h := table_all (chk := fun n s => n == "Parameter" || n == "HTTPSecurityScheme" ||
      (s.names != V30.sParameter.names && s.names != V30.sHTTPSecurityScheme.names)) special_names hn
  simp only [Bool.or_eq_true, beq_iff_eq, Bool.and_eq_true, bne_iff_ne] at h
  rcases h with (rfl | rfl) | h
  · have : GoMap.get? V30.table "Parameter" = some (.struct V30.sParameter) := by decide +kernel
    rw [this] at hn
    cases hn
    rcases hs with hs | hs
    · exact absurd hs.1 (by decide)
    · exact absurd hs (by decide)
  · have : GoMap.get? V30.table "HTTPSecurityScheme" = some (.struct V30.sHTTPSecurityScheme) := by decide +kernel
    rw [this] at hn
    cases hn
    rcases hs with hs | hs
    · exact absurd hs.2 (by decide)
    · exact absurd hs (by decide)
  · exact h

theorem rt_of {T : Table} {ty : Ty} {v : Val} {j : Any} {w : Val} (h1 : encode T ty v = some j)
    (h2 : decode T N ty j = some w) : rt T N ty v = w := by
  unfold rt
  rw [h1, Option.bind_some, h2]
  rfl

theorem same_nonempty {v w : Val} (h : Same v w) (hv : isEmpty v = false) : isEmpty w = false := by
  cases h with
  | same => exact hv
  | emptyList => cases hv
  | emptyMap => cases hv
  | list h => cases h <;> first | exact hv | rfl
  | map h => cases h <;> first | exact hv | rfl
  | struct h => rfl
  | filled _ h => rfl

theorem struct_nonempty {ty : Ty} {v : Val} (h : Writable V30.table N ok30 ty v) {n : String} {s : Struct}
    (e : ty = .named n) (hn : GoMap.get? V30.table n = some (.struct s)) : isEmpty v = false := by
  cases h with
  | enum hn' => cases e; rw [hn] at hn'; cases hn'
  | plain => rfl
  | union => rfl
  | http => rfl
  | security => rfl
  | parameter => rfl
  | _ => cases e

theorem schema_nonempty {v : Val} (h : Writable V30.table N ok30 (.ptr (.named "SchemaOrRef")) v) (hv : v ≠ .nil) :
    isEmpty v = false := by
  cases h with
  | nilPtr => exact absurd rfl hv
  | ptr _ _ _ h => exact struct_nonempty h rfl (s := V30.sSchemaOrRef) (by decide +kernel)

theorem writable_settles (hN : NumsOk N) (hI : ∀ l, N.i64 l = some l → N.f64 l ≠ none) {lo : Prop} {R : Any → Prop} {ty : Ty} {v : Val}
    (h : Writable V30.table N ok30 ty v) (hx : Everywhere (exact N) v) (hl : lo → Everywhere located v)
    (hr : Everywhere (rawIn R) v) :
    Everywhere (settled N lo R) (rt V30.table N ty v) ∧
      ∀ t, ty = .map t → ∀ p ∈ entries v, Everywhere (settled N lo R) (rt V30.table N t p.2) := by
  have F := facts30 N
  have hT := ranked30
  induction h with
  | any h =>
    refine ⟨?_, by intro t h; cases h⟩
    rw [rt_of (w := .any _) rfl (by rw [decode_any, h]; rfl)]
    exact everywhere_any
  | bool b =>
    refine ⟨?_, by intro t h; cases h⟩
    rw [rt_of (w := .bool b) rfl (by rw [decode_bool])]
    intro gs hp; cases hp
  | str s =>
    refine ⟨?_, by intro t h; cases h⟩
    rw [rt_of (w := .str s) rfl (by rw [decode_str])]
    exact everywhere_str
  | @int lit h =>
    refine ⟨?_, by intro t h; cases h⟩
    rw [rt_of (w := .num lit) rfl (by rw [decode_int]; simp [h])]
    intro gs hp; cases hp
  | @float lit h =>
    refine ⟨?_, by intro t h; cases h⟩
    rw [rt_of (w := .num lit) rfl (by rw [decode_float]; simp [h])]
    intro gs hp; cases hp
  | nilPtr t => exact ⟨by rw [rt_of rfl (decode_ptr_null t)]; exact everywhere_nil, by intro t h; cases h⟩
  | @ptr t v ht h1 h2 h ih =>
    refine ⟨?_, by intro t h; cases h⟩
    have hg := writable_good F h
    obtain ⟨j, w, he, hd, hs⟩ := hg.rt
    have hj : j ≠ .null := by
      rintro rfl
      rcases hg.null he with e | e
      · exact h1 e
      · exact h2 e
    have ha := (ih hx hl hr).1
    rw [rt_of he hd] at ha
    rw [rt_of (j := j) (w := w) (by rw [encode_ptr _ h1, he])]
    · exact ha
    · rw [decode_ptr hT ht]
      cases j with
      | null => exact absurd rfl hj
      | _ => exact hd
  | nilSlice t => exact ⟨by rw [rt_of rfl (show decode _ N (.slice t) .null = some .nil by rw [decode_slice])]; exact everywhere_nil, by intro t h; cases h⟩
  | @slice t vs h ih =>
    refine ⟨?_, by intro t h; cases h⟩
    have hg := fun x hx => (writable_good F (h x hx)).rt
    have he : encode V30.table (.slice t) (.list vs) = some (.arr (vs.map (enc V30.table t))) := by
      rw [encode_slice, mapAll_some_of (g := enc V30.table t)]
      · rfl
      · intro x hx; exact enc_some (hg x hx).writes
    rw [rt_of (w := .list (vs.map (rt V30.table N t))) he]
    · apply everywhere_list
      intro y hy
      obtain ⟨x, hxm, rfl⟩ := List.mem_map.1 hy
      exact (ih x hxm (hx.list hxm) (fun h => (hl h).list hxm) (hr.list hxm)).1
    · rw [decode_slice]
      simp only
      rw [mapAll_map, mapAll_some_of (g := rt V30.table N t)]
      · rfl
      · intro x hx; exact (hg x hx).reads
  | nilMap t => exact ⟨by rw [rt_of rfl (show decode _ N (.map t) .null = some .nil by rw [decode_map])]; exact everywhere_nil, fun t _ p hp => nomatch hp⟩
  | @map t ms hk h ih =>
    have hg := fun (p : String × Val) hp => (writable_good F (h p.1 p.2 hp)).rt
    have he : encode V30.table (.map t) (.map ms) = some (.obj (ms.map (fun p => (p.1, enc V30.table t p.2)))) := by
      rw [encode_map, mapAll_some_of (g := fun p => (p.1, enc V30.table t p.2))]
      · rfl
      · intro p hp
        rw [enc_some (hg p hp).writes]
        rfl
    have hi : ∀ p ∈ ms, Everywhere (settled N lo R) (rt V30.table N t p.2) := fun p hp =>
      (ih p.1 p.2 hp (hx.map hp) (fun h => (hl h).map hp) (hr.map hp)).1
    refine ⟨?_, ?_⟩
    · rw [rt_of (w := .map (ms.map (fun p => (p.1, rt V30.table N t p.2)))) he]
      · apply everywhere_map
        intro y hy
        obtain ⟨p, hp, rfl⟩ := List.mem_map.1 hy
        exact hi p hp
      · rw [decode_map]
        simp only
        rw [mapAll_map, mapAll_some_of (g := fun p => (p.1, rt V30.table N t p.2))]
        · rw [Option.map_some, lastWins_nodup]
          simpa [Function.comp_def] using hk
        · intro p hp
          rw [(hg p hp).reads]
          rfl
    · intro t' e p hp
      cases e
      exact hi p hp
  | @enum n values hn s h =>
    refine ⟨?_, by intro t h; cases h⟩
    have hc : values.contains s = true := List.contains_iff_mem.2 h
    rw [rt_of (j := .str s) (w := .str s) (by rw [encode_enum hn, if_pos hc])]
    · exact everywhere_str
    · rw [decode_enum hn]
      simp only
      rw [if_pos hc]
  | @plain n s hn hs hb val hf hp hpk ha hak hone hlow hnot ihf ihp iha =>
    refine ⟨?_, by intro t h; cases h⟩
    have P := F.plain n s hn hs hb
    have V : PlainVal V30.table N s val := by
      refine ⟨?_, ?_, hpk, ?_, hak, hone, hlow⟩
      · intro f hff
        by_cases hx : ExplicitNull s f (val f.go)
        · exact .inl hx
        · exact .inr (writable_good F (hf f hff hx)).rt
      · intro q hq; exact (writable_good F (hp q hq)).deep
      · intro a haa; exact (writable_good F (ha a haa)).deep
    obtain ⟨hd, _⟩ := plain_back hT hn P hs V (by
      intro t ht
      obtain ⟨m, sm, k, rfl, hm, hk, ho⟩ := hnot t ht
      apply decode_missing hT hm hk
      exact omitted_key P.toBase hpk ho)
    rw [rt_of (encode_plainVal hn P V) hd]
    refine everywhere_struct ?_ ?_
    · have hnm : (s.fields.map (fun f : Field => (f.go, fieldBack V30.table N s val (membersFor V30.table s val []) f)) ++ [] ++ [] ++
          (s.patterns.map (fun q : PatField => (q.go, mapVal V30.table N q.ty (val q.go))) ++ addVals V30.table N s val)).map Prod.fst =
          s.names := by
        unfold Struct.names addVals
        rw [hs.1, hs.2]
        simp only [List.map_append, List.map_map, List.append_nil, List.map_nil, List.append_assoc]
        congr 2
        cases s.additional <;> rfl
      apply settled_other <;> rw [hnm]
      · exact (plain_names hn (.inl hs)).1
      · exact (plain_names hn (.inl hs)).2
    · intro p hpm
      simp only [List.append_nil, List.mem_append, List.mem_map] at hpm
      rcases hpm with ⟨f, hff, rfl⟩ | ⟨q, hq, rfl⟩ | hpm
      · exact fieldBack_everywhere hT P.toBase hff (fun hne =>
          (ihf f hff hne (hx.field (field_name hff)) (fun h => (hl h).field (field_name hff)) (hr.field (field_name hff))).1)
      · exact mapVal_everywhere ((ihp q hq (hx.field (pattern_name hq)) (fun h => (hl h).field (pattern_name hq)) (hr.field (pattern_name hq))).2 _ rfl)
      · exact addVals_everywhere (fun a haa =>
          (iha a haa (hx.field (additional_name haa)) (fun h => (hl h).field (additional_name haa)) (hr.field (additional_name haa))).2 _ rfl) p hpm
  | @union n s hn hs go t v ho hv h hok ih =>
    refine ⟨?_, by intro t h; cases h⟩
    obtain ⟨h1, h2, h3, h4⟩ := F.union n s hn hs (List.ne_nil_of_mem ho)
    have hg := writable_good F h
    obtain ⟨j, w, he, hd, hsame⟩ := hg.rt
    have hj : j ≠ .null := by
      rintro rfl
      rcases hg.null he with e | e
      · exact hv e
      · rcases hg.deep with e' | e'
        · exact hv e'
        · exact e'.2.1 e
    obtain ⟨h5, h6⟩ := h4 go t v ho hv hg hok j he
    have hmem : (go, v) ∈ s.oneOf.map (fun h => (h.go, if h.go = go then v else .nil)) :=
      List.mem_map.2 ⟨_, ho, by simp only [if_true]⟩
    have ha := (ih (hx.struct hmem) (fun h => (hl h).struct hmem) (hr.struct hmem)).1
    rw [rt_of he hd] at ha
    rw [rt_of (encode_union hn hs h1 ho he hj) (decode_union hT hn hs h1 ho hd h5)]
    refine everywhere_struct ?_ ?_
    · have hnm : (s.oneOf.map (fun h : Hidden => (h.go, if h.go = go then w else .nil))).map Prod.fst = s.names := by
        rw [List.map_map, hs]
        simp [Struct.names, Function.comp_def]
      have hf : s.fields = [] := by rw [hs]
      apply settled_other <;> rw [hnm]
      · exact (plain_names hn (.inr hf)).1
      · exact (plain_names hn (.inr hf)).2
    · intro p hpm
      obtain ⟨e, _, rfl⟩ := List.mem_map.1 hpm
      simp only
      split
      · exact ha
      · exact everywhere_nil
  | http hn val hf hp hpk hs ihf ihp =>
    refine ⟨?_, by intro t h; cases h⟩
    obtain ⟨_, _, L, hL, hn', hfill, hev⟩ := http30_both (N := N) hT (by decide +kernel) (by decide +kernel) hn val
      (fun f hff => writable_good F (hf f hff)) (writable_good F hp) hpk hs
    rw [hL]
    refine everywhere_struct ⟨?_, fun _ => hfill, ?_⟩ (hev _ settled_small
      (fun f hff => (ihf f hff (hx.field (field_name hff)) (fun h => (hl h).field (field_name hff)) (hr.field (field_name hff))).1)
      ((ihp (hx.field (by decide)) (fun h => (hl h).field (by decide)) (hr.field (by decide))).2 _ rfl))
    · intro e; rw [hn'] at e; exact absurd e (by decide)
    · intro e; rw [hn'] at e; exact absurd e (by decide)
  | security hn => exact absurd hn (by decide +kernel)
  | @parameter hn val hf hp hpk a hxx i hin hreq hst hloc ihf ihp =>
    refine ⟨?_, by intro t h; cases h⟩
    obtain ⟨_, _, L, hL, hn', l1, l2, l3, b, w, c, d1, d2, d3, hev⟩ := parameter30_both (N := N) hn val
      (fun f hff hne => writable_good F (hf f hff hne)) (writable_good F hp) hpk a hxx i hin hreq hst hloc
    have hRc : ∀ b', fieldIn L "SchemaXORContent" = xorSchema b' ∨ fieldIn L "SchemaXORContent" = xorContent b' → R b' := by
      have hself := hr.self (by rw [names_of])
      rw [fieldIn_of val (by decide)] at hself
      have hc : R c := by
        rcases d2 with ⟨e1, _⟩ | ⟨rfl, e⟩
        · exact hself.1 e1 c
        · exact hself.2 c e
      rcases d3 with ⟨_, _, _, _, _, e6⟩ | ⟨_, _, _, _, _, e6⟩ <;> rw [e6] <;> intro b' e <;>
        simp [xorSchema, xorContent] at e <;> rw [← e] <;> exact hc
    have hcb : c = b := by
      rcases d2 with ⟨e1, rfl⟩ | e
      · have hself := hx.self (by rw [names_of]) (by rw [fieldIn_of val (by decide)]; exact e1)
        rw [fieldIn_of val (by decide), fieldIn_of val (by decide)] at hself
        have : decodeAny N b = some b := by
          rcases hxx with ⟨_, _, h3, _⟩ | ⟨_, _, h3, _⟩
          · exact hself.1 b h3
          · exact hself.2 b h3
        rw [d1] at this
        exact Option.some.inj this
      · exact e.1
    subst hcb
    have hl' : lo → val "Location" ≠ .nil := by
      intro h
      have := (hl h).self (by rw [names_of])
      rwa [fieldIn_of val (by decide)] at this
    have hother : fieldIn L "In" = .str "header" ∨ fieldIn L "In" = .str "cookie" → i ∈ ["header", "cookie"] := by
      rw [l2]
      rintro (e | e) <;> cases e <;> decide
    have tyS : tyOk otherTypes (.ptr (.named "SchemaOrRef")) = true := by decide +kernel
    have tyC : tyOk otherTypes (.map (.named "MediaType")) = true := by decide +kernel
    rw [hL]
    refine everywhere_struct ⟨?_, ?_, fun _ => ⟨l1, fun h e => l3 (hl' h) (hother e), ?_, ?_⟩⟩ (hev _ settled_small
      (fun f hff hne => (ihf f hff hne (hx.field (field_name hff)) (fun h => (hl h).field (field_name hff)) (hr.field (field_name hff))).1)
      ((ihp (hx.field (by decide)) (fun h => (hl h).field (by decide)) (hr.field (by decide))).2 _ rfl) ?_)
    · intro _
      rcases d3 with ⟨e1, e2, e3, e4, e5, e6⟩ | ⟨e1, e2, e3, e4, e5, e6⟩
      · left
        refine ⟨c, e6, ?_, by rw [e5]; rfl, ⟨⟨w, e1, by rw [e4]; exact .same _⟩, by rw [e4]; exact schema_any hN hI tyS e1⟩⟩
        rw [e4]
        have fS : (⟨"Schema", "schema", .ptr (.named "SchemaOrRef"), true⟩ : Field) ∈ V30.sParameter.fields := by decide
        have := same_nonempty e2 (schema_nonempty (hf _ fS (not_null30 fS (by decide))) e3)
        rintro rfl
        cases this
      · right
        refine ⟨c, e6, e4, ?_, ⟨⟨w, e1, by rw [e5]; exact .same _⟩, by rw [e5]; exact schema_any hN hI tyC e1⟩⟩
        rw [e5]
        exact same_nonempty e2 e3
    · intro e; rw [hn'] at e; exact absurd e (by decide)
    · rcases d3 with ⟨e1, e2, e3, e4, e5, e6⟩ | ⟨e1, e2, e3, e4, e5, e6⟩
      · exact .inl ⟨c, e6, w, e1, by rw [e4]⟩
      · exact .inr ⟨c, e6, w, e1, by rw [e5]⟩
    · exact hRc
    · rcases d3 with ⟨e1, _⟩ | ⟨e1, _⟩
      · exact schema_every tyS e1 (fun fs _ h1 h2 => settled_other h1 h2)
      · exact schema_every tyC e1 (fun fs _ h1 h2 => settled_other h1 h2)

end Verif
