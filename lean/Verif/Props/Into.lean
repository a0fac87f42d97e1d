import Verif.Lemmas.Into
import Verif.Lemmas.IntoSome
import Verif.Lemmas.IntoParts
import Verif.Props.Names
import Verif.Props.Distinct
import Verif.Props.RoundTrip

/-!
# Reading into a value that has content (C102), and members for the same field (C101)
-/

namespace Verif.Codec
open Verif.Spec

theorem into30 : IntoOk V30.table := intoOk_of_check (by decide +kernel)
theorem into31 : IntoOk V31.table := intoOk_of_check (by decide +kernel)
theorem lower30 : LowerOk V30.table := lowerOk_of_check (by decide +kernel)
theorem lower31 : LowerOk V31.table := lowerOk_of_check (by decide +kernel)

/-! ## New values, and reading again -/

/-- C102 (3.0): reading into a new value is reading, if members for the same field agree. -/
theorem C102_new30 (N : Nums) (ty : Ty) (j : Any) (h : ReadsAlike V30.table N ty j) :
    decodeInto V30.table N ty (zero V30.table ty) j = decode V30.table N ty j := decodeInto_zero into30 h

/-- C102 (3.1), likewise. -/
theorem C102_new31 (N : Nums) (ty : Ty) (j : Any) (h : ReadsAlike V31.table N ty j) :
    decodeInto V31.table N ty (zero V31.table ty) j = decode V31.table N ty j := decodeInto_zero into31 h

/-- C102 (3.0): reading the same JSON again into the value that was read from it changes nothing. -/
theorem C102_again30 (N : Nums) (ty : Ty) (j : Any) (h : ReadsAlike V30.table N ty j) (v : Val)
    (hv : decodeInto V30.table N ty (zero V30.table ty) j = some v) : decodeInto V30.table N ty v j = some v :=
  decodeInto_again into30 h (by rw [← hv]; exact (C102_new30 N ty j h).symm)

/-- C102 (3.1), likewise. -/
theorem C102_again31 (N : Nums) (ty : Ty) (j : Any) (h : ReadsAlike V31.table N ty j) (v : Val)
    (hv : decodeInto V31.table N ty (zero V31.table ty) j = some v) : decodeInto V31.table N ty v j = some v :=
  decodeInto_again into31 h (by rw [← hv]; exact (C102_new31 N ty j h).symm)

/-- C102 (3.0): what a value is written as can be read into a new value, which is then the same, and reading it any number
of times more changes nothing. -/
theorem C102_written30 (N : Nums) (ty : Ty) (v : Val) (h : Writable V30.table N ok30 ty v) (hd : Everywhere noDerived v) :
    ∃ j w, encode V30.table ty v = some j ∧ Same v w ∧ decodeInto V30.table N ty (zero V30.table ty) j = some w ∧
      decodeInto V30.table N ty w j = some w := by
  obtain ⟨j, w, hj, hw, hs⟩ := C35_roundtrip30 N ty v h
  have hc := clearAs_readsAlike (N := N) (C75_spellings30 N ty v h hd j hj)
  have hz := (C102_new30 N ty j hc).trans hw
  exact ⟨j, w, hj, hs, hz, C102_again30 N ty j hc w hz⟩

/-- C102 (3.1), likewise. -/
theorem C102_written31 (N : Nums) (ty : Ty) (v : Val) (h : Writable V31.table N ok31 ty v) :
    ∃ j w, encode V31.table ty v = some j ∧ Same v w ∧ decodeInto V31.table N ty (zero V31.table ty) j = some w ∧
      decodeInto V31.table N ty w j = some w := by
  obtain ⟨j, w, hj, hw, hs⟩ := C35_roundtrip31 N ty v h
  have hc := clearAs_readsAlike (N := N) (C75_spellings31 N ty v h j hj)
  have hz := (C102_new31 N ty j hc).trans hw
  exact ⟨j, w, hj, hs, hz, C102_again31 N ty j hc w hz⟩

/-! ## Whether it is accepted -/

/-- C102 (3.0): what a value holds makes no difference to whether JSON can be read into it. -/
theorem C102_accepted30 (N : Nums) (ty : Ty) (cur : Val) (j : Any) :
    (decodeInto V30.table N ty cur j).isSome = (decode V30.table N ty j).isSome := by
  apply decodeInto_isSome into30 lower30
  intro n s ms _ hs c hc
  have h : V30.table.all (fun p => match p.2 with
    | .struct s => s.lower.isEmpty
    | .enum _ => true) = true := by decide +kernel
  have := List.all_eq_true.mp h _ (get?_mem hs)
  simp only [List.isEmpty_iff] at this
  rw [this] at hc
  cases hc

/-- No object that is read as an HTTP security scheme has null for its scheme. -/
def SchemesGiven (ty : Ty) (j : Any) : Prop :=
  ∀ n ms, n = "SecuritySchemeHTTP" ∨ n = "SecuritySchemeHTTPBearer" → ReadAs V31.table ty j (.named n) (.obj ms) →
    ∀ k x, (k, x) ∈ ms → SameName k "scheme" → x ≠ .null

/-- Only these types check a field after reading. -/
theorem lower_types {n : String} {s : Struct} (hs : GoMap.get? V31.table n = some (.struct s)) {c : LowerCheck}
    (hc : c ∈ s.lower) : (n = "SecuritySchemeHTTP" ∨ n = "SecuritySchemeHTTPBearer") ∧
      ∀ f ∈ s.fields, f.go = c.go → f.key = "scheme" := by
  have h : V31.table.all (fun p => match p.2 with
    | .struct s => s.lower.all (fun c => (p.1 == "SecuritySchemeHTTP" || p.1 == "SecuritySchemeHTTPBearer") &&
        s.fields.all (fun f => f.go != c.go || f.key == "scheme"))
    | .enum _ => true) = true := by decide +kernel
  have := List.all_eq_true.mp h _ (get?_mem hs)
  have := List.all_eq_true.mp this c hc
  simp only [Bool.and_eq_true, Bool.or_eq_true, beq_iff_eq, List.all_eq_true, bne_iff_ne] at this
  refine ⟨this.1, fun f hf e => ?_⟩
  rcases this.2 f hf with h | h
  · exact absurd e h
  · exact h

theorem sameName_symm {a b : String} (h : SameName a b) : SameName b a :=
  (C101_same_name b a).mp ((C101_same_name a b).mpr h).symm

theorem meant_name {fs : List Field} {k : String} {f : Field} (h : MeantFor fs k f) : f ∈ fs ∧ SameName f.key k := by
  rcases h with ⟨pre, post, e, hk, -⟩ | ⟨-, pre, post, e, hk, -⟩
  · exact ⟨by rw [e]; simp, hk ▸ sameName_refl _⟩
  · exact ⟨by rw [e]; simp, hk⟩

/-- C102 (3.1): nor does it in 3.1, if the scheme of every HTTP security scheme is given. -/
theorem C102_accepted31 (N : Nums) (ty : Ty) (cur : Val) (j : Any) (h : SchemesGiven ty j) :
    (decodeInto V31.table N ty cur j).isSome = (decode V31.table N ty j).isSome := by
  apply decodeInto_isSome into31 lower31
  intro n s ms hr hs c hc k x f hm hf hgo
  obtain ⟨hn, hkey⟩ := lower_types hs hc
  obtain ⟨hfm, hname⟩ := meant_name (((C101_field s.fields k).1 f).mp hf)
  rw [hkey f hfm hgo] at hname
  exact h n ms hn hr k x hm (sameName_symm hname)

/-- C102: the condition is needed. A security scheme with null for its scheme is read into a new value, but not into one
that is a bearer scheme. -/
theorem C102_accepted_case (N : Nums) :
    (decodeInto V31.table N (.named "SecuritySchemeHTTP") (zero V31.table (.named "SecuritySchemeHTTP"))
      (.obj [("type", .str "http"), ("scheme", .null)])).isSome = true ∧
    decodeInto V31.table N (.named "SecuritySchemeHTTP") (.struct [("Scheme", .str "bearer")])
      (.obj [("type", .str "http"), ("scheme", .null)]) = none :=
  ⟨by kernel_rfl, by kernel_rfl⟩

/-! ## What becomes of the content -/

/-- C102 (3.0): fields that no member is meant for keep what they hold; others are read over what they hold; entries of maps
are replaced if they are given and stay if not; of the alternatives only the one that fits stays. -/
theorem C102_parts30 (N : Nums) (n : String) (s : Struct) (hs : GoMap.get? V30.table n = some (.struct s))
    (ms : List (String × Any)) (cur w : Val) (h : decodeInto V30.table N (.named n) cur (.obj ms) = some w) :
    ∃ vals, w = .struct vals ∧ vals.map Prod.fst = s.names ∧
      (s.decodes = true → ∀ f ∈ s.fields, ∃ x,
        ReadOver V30.table N s.fields f (fieldBefore cur f.go (zero V30.table f.ty)) ms x ∧
        ((f.go, x) ∈ vals ∨ x = .nil ∧ (f.go, .any .null) ∈ vals ∧ ∃ k ∈ ms.map Prod.fst, (f.go, k) ∈ s.nulls)) ∧
      (∀ e ∈ s.embeds, ∃ x,
        decodeInto V30.table N e.ty (fieldBefore cur e.go (zero V30.table e.ty)) (.obj ms) = some x ∧ (e.go, x) ∈ vals) ∧
      (∀ e ∈ s.oneOf,
        (e.go, (decodeInto V30.table N e.ty (fieldBefore cur e.go (zero V30.table e.ty)) (.obj ms)).getD .nil) ∈ vals) ∧
      (s.oneOf ≠ [] → (s.oneOf.filter (fun e =>
        (decodeInto V30.table N e.ty (fieldBefore cur e.go (zero V30.table e.ty)) (.obj ms)).isSome)).length = 1) ∧
      (∀ q ∈ s.patterns, ∃ m, (q.go, m) ∈ vals ∧
        EntriesReplaced V30.table N q.ty (fun k => Extra s k ∧ q.pat.matches k = true) ms (fieldBefore cur q.go .nil) m) ∧
      (∀ a, s.additional = some a → ∃ m, (a.go, m) ∈ vals ∧
        EntriesReplaced V30.table N a.ty (fun k => Extra s k ∧ ∀ q ∈ s.patterns, q.pat.matches k = false) ms
          (fieldBefore cur a.go .nil) m) := into_parts ranked30 hs h

/-- C102 (3.1), likewise. -/
theorem C102_parts31 (N : Nums) (n : String) (s : Struct) (hs : GoMap.get? V31.table n = some (.struct s))
    (ms : List (String × Any)) (cur w : Val) (h : decodeInto V31.table N (.named n) cur (.obj ms) = some w) :
    ∃ vals, w = .struct vals ∧ vals.map Prod.fst = s.names ∧
      (s.decodes = true → ∀ f ∈ s.fields, ∃ x,
        ReadOver V31.table N s.fields f (fieldBefore cur f.go (zero V31.table f.ty)) ms x ∧
        ((f.go, x) ∈ vals ∨ x = .nil ∧ (f.go, .any .null) ∈ vals ∧ ∃ k ∈ ms.map Prod.fst, (f.go, k) ∈ s.nulls)) ∧
      (∀ e ∈ s.embeds, ∃ x,
        decodeInto V31.table N e.ty (fieldBefore cur e.go (zero V31.table e.ty)) (.obj ms) = some x ∧ (e.go, x) ∈ vals) ∧
      (∀ e ∈ s.oneOf,
        (e.go, (decodeInto V31.table N e.ty (fieldBefore cur e.go (zero V31.table e.ty)) (.obj ms)).getD .nil) ∈ vals) ∧
      (s.oneOf ≠ [] → (s.oneOf.filter (fun e =>
        (decodeInto V31.table N e.ty (fieldBefore cur e.go (zero V31.table e.ty)) (.obj ms)).isSome)).length = 1) ∧
      (∀ q ∈ s.patterns, ∃ m, (q.go, m) ∈ vals ∧
        EntriesReplaced V31.table N q.ty (fun k => Extra s k ∧ q.pat.matches k = true) ms (fieldBefore cur q.go .nil) m) ∧
      (∀ a, s.additional = some a → ∃ m, (a.go, m) ∈ vals ∧
        EntriesReplaced V31.table N a.ty (fun k => Extra s k ∧ ∀ q ∈ s.patterns, q.pat.matches k = false) ms
          (fieldBefore cur a.go .nil) m) := into_parts ranked31 hs h

theorem readOver_one {T : Table} {N : Nums} {fs : List Field} {f : Field} :
    ∀ {v w : Val} {ms : List (String × Any)}, ReadOver T N fs f v ms w → ∀ {k : String} {j : Any},
    (∀ k' j', (k', j') ∈ ms → MeantFor fs k' f → k' = k ∧ j' = j) → ((ms.map Prod.fst).count k ≤ 1) →
    (v = w ∧ ∀ p ∈ ms, ¬ MeantFor fs p.1 f) ∨ decodeInto T N f.ty v j = some w := by
  intro v w ms h
  induction h with
  | nil => intro k j _ _; exact .inl ⟨rfl, nofun⟩
  | @skip v w k' j' ms hk h ih =>
    intro k j ha hc
    have hc' : (ms.map Prod.fst).count k ≤ 1 := by
      have := List.count_le_count_cons (a := k) (b := k') (l := ms.map Prod.fst)
      simp only [List.map_cons] at hc
      omega
    rcases ih (fun a b hm => ha a b (List.mem_cons_of_mem _ hm)) hc' with ⟨e, hn⟩ | h
    · refine .inl ⟨e, fun p hp => ?_⟩
      rcases List.mem_cons.mp hp with rfl | hp
      · exact hk
      · exact hn p hp
    · exact .inr h
  | @read v u w k' j' ms hk hu h ih =>
    intro k j ha hc
    obtain ⟨rfl, rfl⟩ := ha k' j' List.mem_cons_self hk
    simp only [List.map_cons, List.count_cons_self] at hc
    have h0 : ∀ p ∈ ms, ¬ MeantFor fs p.1 f := by
      intro p hp hm
      have e := (ha p.1 p.2 (List.mem_cons_of_mem _ hp) hm).1
      have : 0 < (ms.map Prod.fst).count k' := List.count_pos_iff.mpr (List.mem_map.mpr ⟨p, hp, e⟩)
      omega
    have : u = w := by
      clear ih hu ha hc
      induction h with
      | nil => rfl
      | skip _ _ ih => exact ih fun p hp => h0 p (List.mem_cons_of_mem _ hp)
      | read hk' _ _ _ => exact absurd hk' (h0 _ List.mem_cons_self)
    right
    rw [hu, this]

/-- C101 and C102: a field that no member is meant for keeps what it holds. -/
theorem C102_kept {T : Table} {N : Nums} {fs : List Field} {f : Field} {v w : Val} {ms : List (String × Any)}
    (h : ReadOver T N fs f v ms w) (hn : ∀ p ∈ ms, ¬ MeantFor fs p.1 f) : w = v := by
  induction h with
  | nil => rfl
  | skip _ _ ih => exact ih fun p hp => hn p (List.mem_cons_of_mem _ hp)
  | read hk _ _ _ => exact absurd hk (hn _ List.mem_cons_self)

/-! ## Paths -/

/-- The path item of a document under a path. -/
def pathEntry (spec : Val) (p : String) : Option Val :=
  entryOf (fieldBefore (fieldBefore spec "Paths" .nil) "MapOfPathItemValues" .nil) p

/-- The path starts with a slash. -/
def Slashed (p : String) : Prop := ∃ cs, p.toList = '/' :: cs

theorem slash_matches {p : String} (h : Slashed p) : Pat.matches .slash p = true := by
  obtain ⟨cs, e⟩ := h
  simp only [Pat.matches, e]

theorem fieldBefore_of {vals : List (String × Val)} {go : String} {x d : Val} (hn : (vals.map Prod.fst).Nodup)
    (h : (go, x) ∈ vals) : fieldBefore (.struct vals) go d = x := by
  simp only [fieldBefore, GoMap.get?_of_mem (m := vals) hn h, Option.getD_some]

theorem entries_default {cur : Val} {go go' p : String} {d : Val} (hd : fieldBefore d go' .nil = .nil) :
    entryOf (fieldBefore (fieldBefore cur go d) go' .nil) p = entryOf (fieldBefore (fieldBefore cur go .nil) go' .nil) p := by
  cases cur with
  | struct fs =>
    simp only [fieldBefore]
    cases GoMap.get? fs go with
    | some x => rfl
    | none =>
      simp only [Option.getD_none]
      show entryOf (fieldBefore d go' .nil) p = entryOf .nil p
      rw [hd]
  | _ =>
    show entryOf (fieldBefore d go' .nil) p = entryOf .nil p
    rw [hd]

theorem paths_into {T : Table} {N : Nums} (hT : Ranked T) (hI : IntoOk T) {s : Struct}
    (hs : GoMap.get? T "Paths" = some (.struct s))
    (hf : s.known = [] ∧ s.consts = [] ∧ s.notConsts = [] ∧
      (⟨.slash, "MapOfPathItemValues", .named "PathItem"⟩ : PatField) ∈ s.patterns)
    {ps : List (String × Any)} {v w : Val} (h : decodeInto T N (.named "Paths") v (.obj ps) = some w) (p : String)
    (hp : Slashed p) :
    (∀ x, lastValue ps p = some x → ∃ i, decodeInto T N (.named "PathItem") (zero T (.named "PathItem")) x = some i ∧
      entryOf (fieldBefore w "MapOfPathItemValues" .nil) p = some i) ∧
    (lastValue ps p = none →
      entryOf (fieldBefore w "MapOfPathItemValues" .nil) p = entryOf (fieldBefore v "MapOfPathItemValues" .nil) p) := by
  obtain ⟨vals, rfl, hnames, -, -, -, -, hpat, -⟩ := into_parts hT hs h
  obtain ⟨m, hm, hr⟩ := hpat _ hf.2.2.2
  have hn : (vals.map Prod.fst).Nodup := by rw [hnames]; exact intoOk_names (hI _ _ hs)
  rw [fieldBefore_of hn hm]
  obtain ⟨h1, h2⟩ := hr p
  have hex : Extra s p := by simp [Extra, hf.1, hf.2.1, hf.2.2.1]
  exact ⟨fun x hx => h1 x hx ⟨hex, slash_matches hp⟩, fun hx => h2 (.inl hx)⟩

theorem paths_spec {T : Table} {N : Nums} (hT : Ranked T) (hI : IntoOk T) {s sp : Struct}
    (hs : GoMap.get? T "Spec" = some (.struct s)) (hsp : GoMap.get? T "Paths" = some (.struct sp))
    (hf : sp.known = [] ∧ sp.consts = [] ∧ sp.notConsts = [] ∧
      (⟨.slash, "MapOfPathItemValues", .named "PathItem"⟩ : PatField) ∈ sp.patterns)
    {f : Field} (hfm : f ∈ s.fields) (hgo : f.go = "Paths") (hkey : f.key = "paths") (hnull : s.nulls = [])
    (hdec : s.decodes = true) (hty : f.ty = .named "Paths" ∨ f.ty = .ptr (.named "Paths"))
    {ms : List (String × Any)} {cur w : Val} (h : decodeInto T N (.named "Spec") cur (.obj ms) = some w) (p : String)
    (hp : Slashed p) :
    ((∀ k ∈ ms.map Prod.fst, ¬ SameName "paths" k) → pathEntry w p = pathEntry cur p) ∧
    (∀ ps pre post, ms = pre ++ ("paths", .obj ps) :: post → (∀ k ∈ (pre ++ post).map Prod.fst, ¬ SameName "paths" k) →
      (∀ x, lastValue ps p = some x → ∃ i, decodeInto T N (.named "PathItem") (zero T (.named "PathItem")) x = some i ∧
        pathEntry w p = some i) ∧
      (lastValue ps p = none → pathEntry w p = pathEntry cur p)) := by
  obtain ⟨vals, rfl, hnames, hfields, -⟩ := into_parts hT hs h
  obtain ⟨x, hro, hx⟩ := hfields hdec f hfm
  have hx : (f.go, x) ∈ vals := by
    rcases hx with hx | ⟨-, -, k, -, hk⟩
    · exact hx
    · rw [hnull] at hk; cases hk
  have hn : (vals.map Prod.fst).Nodup := by rw [hnames]; exact intoOk_names (hI _ _ hs)
  rw [hgo] at hx hro
  have hz : fieldBefore (zero T f.ty) "MapOfPathItemValues" .nil = .nil := by
    rcases hty with e | e <;> rw [e]
    · simp only [zero, hsp]; rfl
    · rfl
  have hw : pathEntry (.struct vals) p = entryOf (fieldBefore x "MapOfPathItemValues" .nil) p := by
    unfold pathEntry
    rw [fieldBefore_of hn hx]
  have hcur : pathEntry cur p = entryOf (fieldBefore (fieldBefore cur "Paths" (zero T f.ty)) "MapOfPathItemValues" .nil) p :=
    (entries_default hz).symm
  refine ⟨fun hno => ?_, fun ps pre post e hno => ?_⟩
  · have : x = _ := C102_kept hro fun q hq hm => hno q.1 (List.mem_map_of_mem hq) (hkey ▸ (meant_name hm).2)
    rw [hw, hcur, this]
  · have hone := readOver_one hro (k := "paths") (j := .obj ps) (fun k' j' hm hmeant => by
        subst e
        have hsn := hkey ▸ (meant_name hmeant).2
        rcases List.mem_append.mp hm with hm | hm
        · exact absurd hsn (hno k' (List.mem_map.mpr ⟨_, List.mem_append_left _ hm, rfl⟩))
        · rcases List.mem_cons.mp hm with e | hm
          · cases e; exact ⟨rfl, rfl⟩
          · exact absurd hsn (hno k' (List.mem_map.mpr ⟨_, List.mem_append_right _ hm, rfl⟩)))
      (by
        subst e
        have h0 : ((pre ++ post).map Prod.fst).count "paths" = 0 :=
          List.count_eq_zero.mpr fun hm => hno _ hm (sameName_refl _)
        simp only [List.map_append, List.count_append, List.map_cons, List.count_cons_self] at h0 ⊢
        omega)
    have hread : decodeInto T N f.ty (fieldBefore cur "Paths" (zero T f.ty)) (.obj ps) = some x := by
      rcases hone with ⟨-, hnone⟩ | h
      · exfalso
        have hmem : ("paths", Any.obj ps) ∈ ms := by rw [e]; simp
        refine hnone _ hmem ?_
        have := (C101_field s.fields "paths").1 f
        refine this.mp ?_
        have := fieldOf_key (intoOk_keys (hI _ _ hs)) hfm
        rwa [hkey] at this
      · exact h
    have hbase : ∃ v, decodeInto T N (.named "Paths") v (.obj ps) = some x ∧
        entryOf (fieldBefore v "MapOfPathItemValues" .nil) p = pathEntry cur p := by
      rcases hty with et | et
      · rw [et] at hread hcur
        exact ⟨_, hread, hcur.symm⟩
      · rw [et, decodeInto_ptr hT rfl] at hread
        rw [et] at hcur
        refine ⟨_, hread, ?_⟩
        rw [hcur]
        generalize fieldBefore cur "Paths" (zero T (.ptr (.named "Paths"))) = v
        cases v with
        | nil =>
          show entryOf (fieldBefore (zero T (.named "Paths")) "MapOfPathItemValues" .nil) p = none
          simp only [zero, hsp]
          rfl
        | _ => rfl
    obtain ⟨v, hv, hv2⟩ := hbase
    obtain ⟨h1, h2⟩ := paths_into hT hI hsp hf hv p hp
    rw [hw, ← hv2]
    exact ⟨h1, h2⟩

/-- C102 (3.0): when a document is read into a document, all paths that the file does not have keep their path items, and
those that it has get a new path item with what the file says. -/
theorem C102_paths30 (N : Nums) (ms : List (String × Any)) (cur w : Val)
    (h : decodeInto V30.table N (.named "Spec") cur (.obj ms) = some w) (p : String) (hp : Slashed p) :
    ((∀ k ∈ ms.map Prod.fst, ¬ SameName "paths" k) → pathEntry w p = pathEntry cur p) ∧
    (∀ ps pre post, ms = pre ++ ("paths", .obj ps) :: post → (∀ k ∈ (pre ++ post).map Prod.fst, ¬ SameName "paths" k) →
      (∀ x, lastValue ps p = some x →
        ∃ i, decodeInto V30.table N (.named "PathItem") (zero V30.table (.named "PathItem")) x = some i ∧
          pathEntry w p = some i) ∧
      (lastValue ps p = none → pathEntry w p = pathEntry cur p)) :=
  paths_spec ranked30 into30 (s := V30.sSpec) (sp := V30.sPaths) (f := ⟨"Paths", "paths", .named "Paths", false⟩) rfl rfl
    (by decide +kernel) (by decide +kernel) rfl rfl rfl rfl (.inl rfl) h p hp

/-- C102 (3.1), likewise. -/
theorem C102_paths31 (N : Nums) (ms : List (String × Any)) (cur w : Val)
    (h : decodeInto V31.table N (.named "Spec") cur (.obj ms) = some w) (p : String) (hp : Slashed p) :
    ((∀ k ∈ ms.map Prod.fst, ¬ SameName "paths" k) → pathEntry w p = pathEntry cur p) ∧
    (∀ ps pre post, ms = pre ++ ("paths", .obj ps) :: post → (∀ k ∈ (pre ++ post).map Prod.fst, ¬ SameName "paths" k) →
      (∀ x, lastValue ps p = some x →
        ∃ i, decodeInto V31.table N (.named "PathItem") (zero V31.table (.named "PathItem")) x = some i ∧
          pathEntry w p = some i) ∧
      (lastValue ps p = none → pathEntry w p = pathEntry cur p)) :=
  paths_spec ranked31 into31 (s := V31.sSpec) (sp := V31.sPaths) (f := ⟨"Paths", "paths", .ptr (.named "Paths"), true⟩) rfl
    rfl (by decide +kernel) (by decide +kernel) rfl rfl rfl rfl (.inr rfl) h p hp

/-! ## Members for the same field -/

/-- C101 (3.0): every field of an entity that is read from an object holds what the members that are meant for it say, read
one over the other in the order of the object. -/
theorem C101_read30 (N : Nums) (n : String) (s : Struct) (hs : GoMap.get? V30.table n = some (.struct s))
    (hd : s.decodes = true) (ms : List (String × Any)) (w : Val)
    (h : decodeInto V30.table N (.named n) (zero V30.table (.named n)) (.obj ms) = some w) :
    ∃ vals, w = .struct vals ∧ ∀ f ∈ s.fields, ∃ x, ReadOver V30.table N s.fields f (zero V30.table f.ty) ms x ∧
      ((f.go, x) ∈ vals ∨ x = .nil ∧ (f.go, .any .null) ∈ vals ∧ ∃ k ∈ ms.map Prod.fst, (f.go, k) ∈ s.nulls) := by
  obtain ⟨vals, hw, -, hf, -⟩ := into_parts ranked30 hs h
  have hz : ∀ go d, fieldBefore (zero V30.table (.named n)) go d = d := by
    intro go d; simp only [zero, hs]; rfl
  simp only [hz] at hf
  exact ⟨vals, hw, hf hd⟩

/-- C101 (3.1), likewise. -/
theorem C101_read31 (N : Nums) (n : String) (s : Struct) (hs : GoMap.get? V31.table n = some (.struct s))
    (hd : s.decodes = true) (ms : List (String × Any)) (w : Val)
    (h : decodeInto V31.table N (.named n) (zero V31.table (.named n)) (.obj ms) = some w) :
    ∃ vals, w = .struct vals ∧ ∀ f ∈ s.fields, ∃ x, ReadOver V31.table N s.fields f (zero V31.table f.ty) ms x ∧
      ((f.go, x) ∈ vals ∨ x = .nil ∧ (f.go, .any .null) ∈ vals ∧ ∃ k ∈ ms.map Prod.fst, (f.go, k) ∈ s.nulls) := by
  obtain ⟨vals, hw, -, hf, -⟩ := into_parts ranked31 hs h
  have hz : ∀ go d, fieldBefore (zero V31.table (.named n)) go d = d := by
    intro go d; simp only [zero, hs]; rfl
  simp only [hz] at hf
  exact ⟨vals, hw, hf hd⟩

/-- The types of texts, truth values and numbers. -/
def Scalar (t : Ty) : Prop := t = .str ∨ t = .bool ∨ t = .int ∨ t = .float

/-- C101: of several members for a text, a truth value or a number, the last that is not null wins. -/
theorem C101_last_scalar {T : Table} {N : Nums} {fs : List Field} {f : Field} (ht : Scalar f.ty) {v w : Val}
    {ms : List (String × Any)} (h : ReadOver T N fs f v ms w) :
    (∀ k j, (k, j) ∈ ms → MeantFor fs k f → decode T N f.ty j ≠ none) ∧
    ((∀ k j, (k, j) ∈ ms → MeantFor fs k f → j = .null) ∧ w = v ∨
      ∃ pre k j post, ms = pre ++ (k, j) :: post ∧ MeantFor fs k f ∧ j ≠ .null ∧ decode T N f.ty j = some w ∧
        ∀ k' j', (k', j') ∈ post → MeantFor fs k' f → j' = .null) := by
  have hnull : ∀ v, decodeInto T N f.ty v .null = some v ∧ decode T N f.ty .null ≠ none := by
    intro v
    rcases ht with e | e | e | e <;> rw [e] <;> exact ⟨rfl, nofun⟩
  have hother : ∀ v j, j ≠ .null → decodeInto T N f.ty v j = decode T N f.ty j := by
    intro v j hj
    rcases ht with e | e | e | e <;> rw [e] <;> cases j <;> first | rfl | exact absurd rfl hj
  induction h with
  | nil => exact ⟨nofun, .inl ⟨nofun, rfl⟩⟩
  | @skip v w k j ms hk _ ih =>
    refine ⟨fun k' j' hm hmeant => ?_, ?_⟩
    · rcases List.mem_cons.mp hm with e | hm
      · cases e; exact absurd hmeant hk
      · exact ih.1 k' j' hm hmeant
    · rcases ih.2 with ⟨h1, e⟩ | ⟨pre, k', j', post, e, h⟩
      · refine .inl ⟨fun k' j' hm hmeant => ?_, e⟩
        rcases List.mem_cons.mp hm with e | hm
        · cases e; exact absurd hmeant hk
        · exact h1 k' j' hm hmeant
      · exact .inr ⟨(k, j) :: pre, k', j', post, by rw [e]; rfl, h⟩
  | @read v u w k j ms hk hu _ ih =>
    by_cases hj : j = .null
    · subst hj
      rw [(hnull v).1] at hu
      cases hu
      refine ⟨fun k' j' hm hmeant => ?_, ?_⟩
      · rcases List.mem_cons.mp hm with e | hm
        · cases e; exact (hnull v).2
        · exact ih.1 k' j' hm hmeant
      · rcases ih.2 with ⟨h1, e⟩ | ⟨pre, k', j', post, e, h⟩
        · refine .inl ⟨fun k' j' hm hmeant => ?_, e⟩
          rcases List.mem_cons.mp hm with e | hm
          · cases e; rfl
          · exact h1 k' j' hm hmeant
        · exact .inr ⟨(k, .null) :: pre, k', j', post, by rw [e]; rfl, h⟩
    · rw [hother v j hj] at hu
      refine ⟨fun k' j' hm hmeant => ?_, ?_⟩
      · rcases List.mem_cons.mp hm with e | hm
        · cases e; rw [hu]; nofun
        · exact ih.1 k' j' hm hmeant
      · rcases ih.2 with ⟨h1, e⟩ | ⟨pre, k', j', post, e, h⟩
        · exact .inr ⟨[], k, j, ms, rfl, hk, hj, by rw [hu, e], h1⟩
        · exact .inr ⟨(k, j) :: pre, k', j', post, by rw [e]; rfl, h⟩

/-- C101: of several members for an optional text, truth value or number, or for a value of any kind, the last wins. -/
theorem C101_last {T : Table} {N : Nums} {fs : List Field} {f : Field}
    (ht : f.ty = .any ∨ f.ty = .ptr .any ∨ ∃ t, Scalar t ∧ f.ty = .ptr t) {v w : Val} {ms : List (String × Any)}
    (h : ReadOver T N fs f v ms w) :
    (∀ k j, (k, j) ∈ ms → MeantFor fs k f → decode T N f.ty j ≠ none) ∧
    ((∀ k j, (k, j) ∈ ms → ¬ MeantFor fs k f) ∧ w = v ∨
      ∃ pre k j post, ms = pre ++ (k, j) :: post ∧ MeantFor fs k f ∧ decode T N f.ty j = some w ∧
        ∀ k' j', (k', j') ∈ post → ¬ MeantFor fs k' f) := by
  have hsame : ∀ v j, decodeInto T N f.ty v j = decode T N f.ty j := by
    intro v j
    rcases ht with e | e | ⟨t, hs, e⟩
    · rw [e]; rfl
    · rw [e]; cases j <;> rfl
    · rw [e]
      rcases hs with rfl | rfl | rfl | rfl <;> cases j <;> rfl
  induction h with
  | nil => exact ⟨nofun, .inl ⟨nofun, rfl⟩⟩
  | @skip v w k j ms hk _ ih =>
    refine ⟨fun k' j' hm hmeant => ?_, ?_⟩
    · rcases List.mem_cons.mp hm with e | hm
      · cases e; exact absurd hmeant hk
      · exact ih.1 k' j' hm hmeant
    · rcases ih.2 with ⟨h1, e⟩ | ⟨pre, k', j', post, e, h⟩
      · refine .inl ⟨fun k' j' hm hmeant => ?_, e⟩
        rcases List.mem_cons.mp hm with e | hm
        · cases e; exact absurd hmeant hk
        · exact h1 k' j' hm hmeant
      · exact .inr ⟨(k, j) :: pre, k', j', post, by rw [e]; rfl, h⟩
  | @read v u w k j ms hk hu _ ih =>
    rw [hsame] at hu
    refine ⟨fun k' j' hm hmeant => ?_, ?_⟩
    · rcases List.mem_cons.mp hm with e | hm
      · cases e; rw [hu]; nofun
      · exact ih.1 k' j' hm hmeant
    · rcases ih.2 with ⟨h1, e⟩ | ⟨pre, k', j', post, e, h⟩
      · exact .inr ⟨[], k, j, ms, rfl, hk, by rw [hu, e], h1⟩
      · exact .inr ⟨(k, j) :: pre, k', j', post, by rw [e]; rfl, h⟩

/-! ## Concrete cases -/

/-- The field of a struct value that was read. -/
def readField (go : String) : Option Val → Option Val
  | some (.struct vals) => GoMap.get? vals go
  | _ => none

/-- C101, a case: in 3.1 a second spelling of a name takes part, and the last one wins. In 3.0 it is an error. -/
theorem C101_case (N : Nums) :
    readField "Title" (decodeInto V31.table N (.named "Info") (.struct [])
      (.obj [("title", .str "a"), ("version", .str "1"), ("TITLE", .str "b")])) = some (.str "b") ∧
    readField "Title" (decodeInto V31.table N (.named "Info") (.struct [])
      (.obj [("TITLE", .str "b"), ("version", .str "1"), ("title", .str "a")])) = some (.str "a") ∧
    readField "Title" (decodeInto V31.table N (.named "Info") (.struct [])
      (.obj [("title", .str "b"), ("version", .str "1"), ("title", .null)])) = some (.str "b") ∧
    decodeInto V30.table N (.named "Info") (.struct [])
      (.obj [("title", .str "a"), ("version", .str "1"), ("TITLE", .str "b")]) = none :=
  ⟨by kernel_rfl, by kernel_rfl, by kernel_rfl, by kernel_rfl⟩

/-- C101, a case: an object that is given twice is merged: the contact keeps its name. -/
theorem C101_merge_case (N : Nums) :
    readField "Email" (readField "Contact" (decodeInto V31.table N (.named "Info") (.struct [])
      (.obj [("title", .str "a"), ("version", .str "1"), ("contact", .obj [("name", .str "n"), ("email", .str "x")]),
        ("contact", .obj [("email", .str "y")])]))) = some (.str "y") ∧
    readField "Name" (readField "Contact" (decodeInto V31.table N (.named "Info") (.struct [])
      (.obj [("title", .str "a"), ("version", .str "1"), ("contact", .obj [("name", .str "n"), ("email", .str "x")]),
        ("contact", .obj [("email", .str "y")])]))) = some (.str "n") :=
  ⟨by kernel_rfl, by kernel_rfl⟩

/-- The hypotheses of `C102_written30` and `C102_written31` are met by the sample documents of C35. -/
theorem C102_case30 : Writable V30.table sampleNums ok30 (.named "Spec") sample30 ∧ Everywhere noDerived sample30 := C75_case30
theorem C102_case31 : Writable V31.table sampleNums ok31 (.named "Spec") sample31 := C75_case31

/-- A file with one path is read into a document with one path: both are there then. The title is replaced, the description
stays. -/
theorem C102_merge_case (N : Nums) :
    let old := (decodeInto V31.table N (.named "Spec") (.struct []) (.obj [("openapi", .str "3.1.0"),
      ("info", .obj [("title", .str "a"), ("version", .str "1"), ("description", .str "d")]),
      ("paths", .obj [("/a", .obj [("summary", .str "s")])])])).getD .nil
    let new := decodeInto V31.table N (.named "Spec") old (.obj [("openapi", .str "3.1.0"),
      ("info", .obj [("title", .str "b"), ("version", .str "1")]), ("paths", .obj [("/b", .obj [])])])
    new.isSome = true ∧ readField "Title" (readField "Info" new) = some (.str "b") ∧
      readField "Description" (readField "Info" new) = some (.str "d") ∧
      readField "Summary" (pathEntry (new.getD .nil) "/a") = some (.str "s") ∧
      (pathEntry (new.getD .nil) "/b").isSome = true ∧ pathEntry (new.getD .nil) "/c" = none ∧ pathEntry old "/b" = none :=
  ⟨by kernel_rfl, by kernel_rfl, by kernel_rfl, by kernel_rfl, by kernel_rfl, by kernel_rfl, by kernel_rfl⟩

/-- Keys may repeat if their values agree. -/
theorem C102_repeated_case (N : Nums) : ReadsAlike V30.table N (.named "Contact")
    (.obj [("name", .str "n"), ("name", .str "n")]) := by
  have hst : GoMap.get? V30.table "Contact" = some (.struct V30.sContact) := rfl
  intro n s ms h hs
  cases h with
  | self =>
    intro k₁ x₁ k₂ x₂ f h1 h2 _ _
    left
    simp only [List.mem_cons, Prod.mk.injEq, List.not_mem_nil, or_false, or_self] at h1 h2
    rw [h1.2, h2.2]
  | alternative hs' ht _ =>
    rw [hst] at hs'
    cases hs'
    rcases ht with h | ⟨e, he, -⟩
    · cases h
    · cases he
  | field hs' hx hf h =>
    rw [hst] at hs'
    cases hs'
    simp only [List.mem_cons, Prod.mk.injEq, List.not_mem_nil, or_false, or_self] at hx
    rw [hx.1] at hf
    cases hf
    rw [hx.2] at h
    cases h with
    | ptr h => cases h
  | pattern hs' hx hq hk _ =>
    rw [hst] at hs'
    cases hs'
    simp only [List.mem_cons, Prod.mk.injEq, List.not_mem_nil, or_false, or_self] at hx
    simp only [V30.sContact, List.mem_cons, List.not_mem_nil, or_false] at hq
    rw [hx.1, hq] at hk
    cases hk
  | additional hs' _ ha _ _ =>
    rw [hst] at hs'
    cases hs'
    cases ha

end Verif.Codec
