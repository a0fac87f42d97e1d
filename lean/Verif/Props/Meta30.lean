import Verif.Lemmas.MetaWritten30
import Verif.Lemmas.Repeated
import Verif.Props.Distinct

/-! OpenAPI 3.0 documents and the meta-schema of OpenAPI 3.0 (C77, C78, C79). -/

namespace Verif
open Codec Spec Meta

/-- **C77**: the meta-schema means something … -/
theorem C77_meaning_exists (isInt : String → Prop) : ∃ env, Meaning defs30 isInt env :=
  exists_meaning ranks30 closed30 (by decide +kernel)

/-- **C77**: … and only one thing. -/
theorem C77_meaning_unique (isInt : String → Prop) (env env' : String → Any → Prop) (h : Meaning defs30 isInt env)
    (h' : Meaning defs30 isInt env') (n : String) (hn : ∃ s, (n, s) ∈ defs30) (j : Any) : env n j ↔ env' n j :=
  unique_meaning ranks30 closed30 h h' _ n j hn (Nat.lt_succ_self _)

/-- **C77**: a document that can be written and read back (C35), that was not read itself, and in which nothing that
is written is a nil pointer, slice or map, is written as JSON that the meta-schema of OpenAPI 3.0 accepts. -/
theorem C77_written_valid30 (N : Nums) (isInt : String → Prop) (env : String → Any → Prop)
    (hE : Meaning defs30 isInt env) (hI : ∀ l, N.i64 l ≠ none → isInt l) (hF : ∀ l, N.i64 l = some l → N.f64 l ≠ none)
    (v : Val) (h : Writable V30.table N ok30 (.named "Spec") v) (hd : Everywhere noDerived v)
    (hn : NoNulls V30.table (.named "Spec") v) (j : Any) (hj : encode V30.table (.named "Spec") v = some j) :
    env "OpenAPI" j := by
  obtain ⟨j', w, hj', hw, _⟩ := C35_roundtrip30 N _ v h
  rw [hj] at hj'
  cases hj'
  have hwr := writable_wr hF h hd
  obtain ⟨h1, h2⟩ := hwr
  rw [enc_of hj] at h1 h2
  have := sound30 hE hI _ j (Nat.le_refl _) (.named "Spec") (.ref "OpenAPI") (by decide +kernel)
    ⟨C75_distinct30 N _ v h hd j hj, h1, regular_of_fine (h2 hn)⟩ (by rw [Can, hw]; rfl)
  simpa only [Ok] using this

/-- **C78**: whatever the meta-schema of OpenAPI 3.0 accepts is read, if its numbers can be represented and the keys of
a discriminator are not written in other letter case. -/
theorem C78_valid_read30 (N : Nums) (isInt : String → Prop) (env : String → Any → Prop) (hE : Meaning defs30 isInt env)
    (j : Any) (hN : ∀ l ∈ literals j, N.f64 l ≠ none ∧ (isInt l → N.i64 l ≠ none))
    (hd : DiscriminatorKeys V30.table (.named "Spec") j) (h : env "OpenAPI" j) :
    ∃ v, decode V30.table N (.named "Spec") j = some v := by
  have := complete30 hE _ j (Nat.le_refl _) (.named "Spec") (.ref "OpenAPI") (by decide +kernel)
    ⟨hd, fun l hl => (hN l hl).1, fun l hl => (hN l hl).2⟩ (by simpa only [Ok] using h)
  exact Option.isSome_iff_exists.1 this

/-- **C79**: whatever is read is accepted by the meta-schema, if the document makes no use of what is read beyond the
meta-schema: repeated keys, `null`, other JSON where an object is expected, and empty lists `required` and `enum`. -/
theorem C79_read_valid30 (N : Nums) (isInt : String → Prop) (env : String → Any → Prop) (hE : Meaning defs30 isInt env)
    (hI : ∀ l, N.i64 l ≠ none → isInt l) (j : Any) (hN : ∀ l ∈ literals j, N.f64 l ≠ none) (hd : Distinct j)
    (hr : Regular V30.table (fun ty x => ∃ v, decode V30.table N ty x = some v) (.named "Spec") j) (v : Val)
    (h : decode V30.table N (.named "Spec") j = some v) : env "OpenAPI" j := by
  have e : (fun ty x => ∃ v, decode V30.table N ty x = some v) = Can V30.table N := by
    funext ty x
    exact propext Option.isSome_iff_exists.symm
  rw [e] at hr
  have := sound30 hE hI _ j (Nat.le_refl _) (.named "Spec") (.ref "OpenAPI") (by decide +kernel)
    ⟨hd, hN, hr⟩ (by rw [Can, h]; rfl)
  simpa only [Ok] using this

/-! ## Concrete cases -/

/-- Nothing that is written is nil. -/
def noNullsB (T : Table) : Nat → Ty → Val → Bool
  | 0, _, _ => false
  | r + 1, ty, v => !isNilB v && match ty, v with
    | .ptr t, v => noNullsB T r t v
    | .slice t, .list vs => vs.all (noNullsB T r t)
    | .map t, .map ms => ms.all (fun p => noNullsB T r t p.2)
    | .named n, .struct fs => match GoMap.get? T n with
      | some (.struct s) =>
        s.fields.all (fun f => fs.all (fun p => p.1 != f.go || omitted f p.2 || noNullsB T r f.ty p.2)) &&
        s.hidden.all (fun f => fs.all (fun p => p.1 != f.go || isNilB p.2 || noNullsB T r f.ty p.2))
      | _ => true
    | _, _ => true

theorem noNullsB_ne {T : Table} {r : Nat} {ty : Ty} {v : Val} (h : noNullsB T r ty v = true) : v ≠ .nil := by
  rintro rfl
  cases r <;> simp [noNullsB, isNilB] at h

theorem noNullsB_sound {T : Table} {ty ty' : Ty} {v v' : Val} (hp : PartOf T ty v ty' v') :
    ∀ r, noNullsB T r ty v = true → ∃ r', noNullsB T r' ty' v' = true := by
  induction hp with
  | self => intro r h; exact ⟨r, h⟩
  | ptr hv _ ih =>
    intro r h
    cases r with
    | zero => cases h
    | succ r =>
      simp only [noNullsB, Bool.and_eq_true] at h
      exact ih r h.2
  | elem hx _ ih =>
    intro r h
    cases r with
    | zero => cases h
    | succ r =>
      simp only [noNullsB, Bool.and_eq_true, List.all_eq_true] at h
      exact ih r (h.2 _ hx)
  | entry hx _ ih =>
    intro r h
    cases r with
    | zero => cases h
    | succ r =>
      simp only [noNullsB, Bool.and_eq_true, List.all_eq_true] at h
      exact ih r (h.2 _ hx)
  | field hn hf hx ho _ ih =>
    intro r h
    cases r with
    | zero => cases h
    | succ r =>
      simp only [noNullsB, hn, Bool.and_eq_true, List.all_eq_true] at h
      have := h.2.1 _ hf _ hx
      simp only [bne_self_eq_false, ho, Bool.or_self, Bool.false_or] at this
      exact ih r this
  | @hidden _ _ hn f hf _ x _ _ hx hv _ ih =>
    intro r h
    cases r with
    | zero => cases h
    | succ r =>
      simp only [noNullsB, hn, Bool.and_eq_true, List.all_eq_true] at h
      have := h.2.2 _ hf _ hx
      have hb : isNilB x = false := by
        cases hc : isNilB x with
        | false => rfl
        | true => exact absurd (isNilB_iff.1 hc) hv
      simp only [bne_self_eq_false, hb, Bool.or_self, Bool.false_or] at this
      exact ih r this

theorem noNulls_of_check {T : Table} {r : Nat} {ty : Ty} {v : Val} (h : noNullsB T r ty v = true) : NoNulls T ty v := by
  intro t hp
  obtain ⟨r', h'⟩ := noNullsB_sound hp r h
  exact noNullsB_ne h' rfl

/-- The sample document of C35 meets the hypotheses of C77. -/
theorem C77_case30 : Writable V30.table sampleNums ok30 (.named "Spec") sample30 ∧ Everywhere noDerived sample30 ∧
    NoNulls V30.table (.named "Spec") sample30 ∧ (encode V30.table (.named "Spec") sample30).isSome = true :=
  ⟨C35_case30, C75_case30.2, noNulls_of_check (r := 40) (by decide +kernel), by decide +kernel⟩

/-- So it is accepted, whichever literals are taken for integers. -/
theorem C77_sample_valid (env : String → Any → Prop) (hE : Meaning defs30 (fun _ => True) env) :
    env "OpenAPI" (written V30.table "Spec" sample30) := by
  obtain ⟨h1, h2, h3, h4⟩ := C77_case30
  obtain ⟨j, hj⟩ := Option.isSome_iff_exists.1 h4
  have := C77_written_valid30 sampleNums _ env hE (fun _ _ => trivial) (fun l _ => by simp [sampleNums]) _ h1 h2 h3 j hj
  rwa [show written V30.table "Spec" sample30 = j by simp [written, hj]]

/-- Everything that is read satisfies `p`. -/
def readsB (T : Table) (p : Ty → Any → Bool) : Nat → Ty → Any → Bool
  | 0, _, _ => false
  | r + 1, ty, j => p ty j && match ty with
    | .ptr t => readsB T p r t j
    | .slice t => match j with
      | .arr xs => xs.all (readsB T p r t)
      | _ => true
    | .map t => match j with
      | .obj ms => ms.all (fun m => readsB T p r t m.2)
      | _ => true
    | .named n => match GoMap.get? T n with
      | some (.struct s) => s.oneOf.all (fun o => readsB T p r o.ty j) && match j with
        | .obj ms => ms.all (fun m => s.fields.all (fun f => m.1 != f.key || readsB T p r f.ty m.2) &&
            s.patterns.all (fun q => !q.pat.matches m.1 || readsB T p r q.ty m.2) &&
            (match s.additional with
              | some a => s.patterns.any (fun q => q.pat.matches m.1) || readsB T p r a.ty m.2
              | none => true))
        | _ => true
      | _ => true
    | _ => true

theorem readsB_sound {T : Table} {p : Ty → Any → Bool} {alt : Ty → Any → Prop} {ty ty' : Ty} {j j' : Any}
    (h : Reads T alt ty j ty' j') : ∀ r, readsB T p r ty j = true → p ty' j' = true := by
  induction h with
  | self =>
    intro r h
    cases r with
    | zero => cases h
    | succ r => simp only [readsB, Bool.and_eq_true] at h; exact h.1
  | ptr _ ih =>
    intro r h
    cases r with
    | zero => cases h
    | succ r => simp only [readsB, Bool.and_eq_true] at h; exact ih r h.2
  | elem hx _ ih =>
    intro r h
    cases r with
    | zero => cases h
    | succ r => simp only [readsB, Bool.and_eq_true, List.all_eq_true] at h; exact ih r (h.2 _ hx)
  | entry hx _ ih =>
    intro r h
    cases r with
    | zero => cases h
    | succ r => simp only [readsB, Bool.and_eq_true, List.all_eq_true] at h; exact ih r (h.2 _ hx)
  | field hn hf hx _ ih =>
    intro r h
    cases r with
    | zero => cases h
    | succ r =>
      simp only [readsB, hn, Bool.and_eq_true, List.all_eq_true] at h
      have := (h.2.2 _ hx).1.1 _ hf
      simp only [bne_self_eq_false, Bool.false_or] at this
      exact ih r this
  | pattern hn hq hk hx _ ih =>
    intro r h
    cases r with
    | zero => cases h
    | succ r =>
      simp only [readsB, hn, Bool.and_eq_true, List.all_eq_true] at h
      have := (h.2.2 _ hx).1.2 _ hq
      simp only [hk, Bool.not_true, Bool.false_or] at this
      exact ih r this
  | @additional _ s hn a ha _ k _ _ _ hk hx _ ih =>
    intro r h
    cases r with
    | zero => cases h
    | succ r =>
      simp only [readsB, hn, Bool.and_eq_true, List.all_eq_true] at h
      have := (h.2.2 _ hx).2
      have hf : s.patterns.any (fun q => q.pat.matches k) = false := by
        rw [List.any_eq_false]
        intro q hq
        rw [hk q hq]
        simp
      rw [ha] at this
      simp only [hf, Bool.false_or] at this
      exact ih r this
  | alternative hn ho _ _ ih =>
    intro r h
    cases r with
    | zero => cases h
    | succ r =>
      simp only [readsB, hn, Bool.and_eq_true, List.all_eq_true] at h
      exact ih r (h.2.1 _ ho)

/-- The keys of discriminators. -/
def discriminatorB (ty : Ty) (j : Any) : Bool :=
  match ty, j with
  | .named "Discriminator", .obj ms => ms.all (fun m => ["propertyName", "mapping"].contains m.1)
  | _, _ => true

theorem discriminator_of_check {T : Table} {r : Nat} {ty : Ty} {j : Any} (h : readsB T discriminatorB r ty j = true) :
    DiscriminatorKeys T ty j := by
  intro ms hr k x hx _
  have := readsB_sound hr r h
  simp only [discriminatorB, List.all_eq_true] at this
  exact List.contains_iff_mem.1 (this _ hx)

/-- The conditions of `Regular`. -/
def regularB (T : Table) (ty : Ty) (j : Any) : Bool :=
  match ty, j with
  | .any, _ => true
  | .ptr .any, _ => true
  | .named n, .obj ms => n != "Schema" || ms.all (fun m => !["required", "enum"].contains m.1 ||
      match m.2 with
      | .arr [] => false
      | _ => true)
  | .named n, j => (match j with
      | .null => false
      | _ => true) && match GoMap.get? T n with
        | some (.struct s) => s.decodes || !s.oneOf.isEmpty
        | _ => true
  | _, .null => false
  | _, _ => true

theorem regular_of_check {T : Table} {r : Nat} {alt : Ty → Any → Prop} {ty : Ty} {j : Any}
    (h : readsB T (regularB T) r ty j = true) : Regular T alt ty j := by
  refine ⟨?_, ?_, ?_⟩
  · intro t hr
    have := readsB_sound hr r h
    unfold regularB at this
    split at this <;> simp_all
  · intro n s x hr hn hd ho
    have := readsB_sound hr r h
    unfold regularB at this
    split at this
    · simp_all
    · simp_all
    · exact ⟨_, rfl⟩
    · simp_all
    · simp_all
    · simp_all
  · intro ms hr k hk hm
    have := readsB_sound hr r h
    simp only [regularB, bne_self_eq_false, Bool.false_or, List.all_eq_true] at this
    have := this _ hm
    simp only [List.contains_iff_mem.2 hk, Bool.not_true, Bool.false_or] at this
    cases this

/-- What the sample document is written as meets the hypotheses of C78 … -/
theorem C78_case30 : DiscriminatorKeys V30.table (.named "Spec") (written V30.table "Spec" sample30) :=
  discriminator_of_check (r := 60) (by decide +kernel)

/-- … and those of C79. -/
theorem C79_case30 : Distinct (written V30.table "Spec" sample30) ∧
    Regular V30.table (fun ty x => ∃ v, decode V30.table sampleNums ty x = some v) (.named "Spec")
      (written V30.table "Spec" sample30) ∧
    (decode V30.table sampleNums (.named "Spec") (written V30.table "Spec" sample30)).isSome = true :=
  ⟨clear_distinct _ C74_case30.1, regular_of_check (r := 60) (by decide +kernel), by decide +kernel⟩

/-! ## What is read beyond the meta-schema -/

/-- A document whose `info` and `paths` are as given. -/
def small (info paths : Any) : Any := .obj [("openapi", .str "3.0.3"), ("info", info), ("paths", paths)]

theorem small_parts {isInt : String → Prop} {env : String → Any → Prop} (hE : Meaning defs30 isInt env) {info paths : Any}
    (h : env "OpenAPI" (small info paths)) : env "Info" info ∧ env "Paths" paths := by
  rw [hE "OpenAPI" mOpenAPI (by simp [defs30]), mOpenAPI, ok_all] at h
  have h := h _ (by simp only [List.mem_cons]; exact .inr (.inr (.inl rfl)))
  rw [ok_object] at h
  have h := h _ rfl
  have h1 := (h "info" info (by simp)).1 (.ref "Info") (by simp)
  have h2 := (h "paths" paths (by simp)).1 (.ref "Paths") (by simp)
  simp only [Ok] at h1 h2
  exact ⟨h1, h2⟩

theorem not_object {isInt : String → Prop} {env : String → Any → Prop} (hE : Meaning defs30 isInt env) {n : String} {ks : List Sch}
    (hn : (n, .all (.type "object" :: ks)) ∈ defs30) {j : Any} (h : env n j) : ∃ ms, j = .obj ms := by
  rw [hE n _ hn, ok_all] at h
  have := h (.type "object") List.mem_cons_self
  simp only [Ok] at this
  cases j with
  | obj ms => exact ⟨ms, rfl⟩
  | num l =>
    rcases this with e | ⟨e, _⟩
    · exact absurd e (by decide)
    · exact absurd e (by decide)
  | _ => exact absurd (show "object" = _ from this) (by decide)

/-- **C79**: paths that are no object are read as no paths, although the meta-schema rejects them … -/
theorem C79_paths_lenient : (∀ N, ∃ v, decode V30.table N (.named "Spec")
      (small (.obj [("title", .str "t"), ("version", .str "1")]) (.str "none")) = some v) ∧
    ∀ isInt env, Meaning defs30 isInt env →
      ¬env "OpenAPI" (small (.obj [("title", .str "t"), ("version", .str "1")]) (.str "none")) := by
  refine ⟨fun N => ⟨_, by rfl⟩, ?_⟩
  intro isInt env hE h
  obtain ⟨ms, e⟩ := not_object hE (by simp [defs30, mPaths]; rfl) (small_parts hE h).2
  cases e

/-- … and so is `null` in the place of an optional object. -/
theorem C79_null_lenient : (∀ N, ∃ v, decode V30.table N (.named "Spec")
      (small (.obj [("title", .str "t"), ("version", .str "1"), ("contact", .null)]) (.obj [])) = some v) ∧
    ∀ isInt env, Meaning defs30 isInt env →
      ¬env "OpenAPI" (small (.obj [("title", .str "t"), ("version", .str "1"), ("contact", .null)]) (.obj [])) := by
  refine ⟨fun N => ⟨_, by rfl⟩, ?_⟩
  intro isInt env hE h
  have h := (small_parts hE h).1
  rw [hE "Info" mInfo (by simp [defs30]), mInfo, ok_all] at h
  have h := h _ (by simp only [List.mem_cons]; exact .inr (.inr (.inl rfl)))
  rw [ok_object] at h
  have h := (h _ rfl "contact" .null (by simp)).1 (.ref "Contact") (by simp)
  simp only [Ok] at h
  obtain ⟨ms, e⟩ := not_object hE (by simp [defs30, mContact]; rfl) h
  cases e

end Verif
