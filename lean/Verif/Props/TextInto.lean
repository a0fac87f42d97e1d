import Verif.TextInto
import Verif.Props.Into
import Verif.Props.TextYaml
import Verif.Lemmas.SortedRead

/-!
# Reading texts into a document that has content (C108)
-/

namespace Verif
open Codec Spec Grammar

/-! ## Texts -/

/-- **C108.** The layout of a text does not matter to what is read into a value, whatever the value holds. -/
theorem C108_layout (T : Table) (N : Nums) (ty : Ty) (cur : Val) (cs : List Char) (j : Any) (h : JSONText cs j)
    (hd : depth j ≤ 10000) : Text.unmarshalInto T N ty cur cs = decodeInto T N ty cur j := by
  unfold Text.unmarshalInto
  rw [(C95_parse cs j).2 ⟨h, hd⟩]

/-- **C108.** A text that is not JSON, or is nested too deeply, is not read into anything. -/
theorem C108_rejects (T : Table) (N : Nums) (ty : Ty) (cur : Val) (cs : List Char) (h : ∀ j, JSONText cs j → 10000 < depth j) :
    Text.unmarshalInto T N ty cur cs = none := by
  unfold Text.unmarshalInto
  cases hp : Text.parse cs with
  | none => rfl
  | some j =>
    obtain ⟨h1, h2⟩ := (C95_parse cs j).1 hp
    have := h j h1
    omega

theorem into_read {T : Table} {N : Nums} {ty : Ty} {cur w : Val} {cs : List Char} {j : Any} (ht : JSONText cs j)
    (h : Text.unmarshalInto T N ty cur cs = some w) : decodeInto T N ty cur j = some w := by
  by_cases hd : depth j ≤ 10000
  · rwa [C108_layout T N ty cur cs j ht hd] at h
  · rw [C108_rejects T N ty cur cs fun j' hj' => by
      rw [C95_unique cs j' j hj' ht]
      omega] at h
    cases h

/-- **C108** (3.0): what a value holds makes no difference to whether a text can be read into it. -/
theorem C108_accepted30 (N : Nums) (ty : Ty) (cur : Val) (cs : List Char) :
    (Text.unmarshalInto V30.table N ty cur cs).isSome = (Text.unmarshal V30.table N ty cs).isSome := by
  unfold Text.unmarshalInto Text.unmarshal
  cases Text.parse cs with
  | none => rfl
  | some j => exact C102_accepted30 N ty cur j

/-- **C108** (3.1), if the scheme of every HTTP security scheme is given. -/
theorem C108_accepted31 (N : Nums) (ty : Ty) (cur : Val) (cs : List Char) (h : ∀ j, JSONText cs j → SchemesGiven ty j) :
    (Text.unmarshalInto V31.table N ty cur cs).isSome = (Text.unmarshal V31.table N ty cs).isSome := by
  unfold Text.unmarshalInto Text.unmarshal
  cases hp : Text.parse cs with
  | none => rfl
  | some j => exact C102_accepted31 N ty cur j (h j ((C95_parse cs j).1 hp).1)

/-- **C108** (3.0): the text of a document can be read into a new document, which is then the same, and reading it again
into that document changes nothing. -/
theorem C108_text30 (N : Nums) (n : String) (v : Val) (h : Writable V30.table N ok30 (.named n) v)
    (hf : Everywhere noDerived v) (hv : Numeric v) (cs : List Char) (hw : Text.marshal V30.table (.named n) v = .ok cs) :
    ∃ w, Same v w ∧ Text.unmarshalInto V30.table N (.named n) (zero V30.table (.named n)) cs = some w ∧
      Text.unmarshalInto V30.table N (.named n) w cs = some w := by
  obtain ⟨j, w, he, hs, h1, h2⟩ := C102_written30 N (.named n) v h hf
  obtain ⟨j', he', _, hp⟩ := written_json wide30 hv hw
  rw [he] at he'
  cases he'
  exact ⟨w, hs, by simp only [Text.unmarshalInto, hp, h1], by simp only [Text.unmarshalInto, hp, h2]⟩

/-- **C108** (3.1), likewise. -/
theorem C108_text31 (N : Nums) (n : String) (v : Val) (h : Writable V31.table N ok31 (.named n) v) (hv : Numeric v)
    (cs : List Char) (hw : Text.marshal V31.table (.named n) v = .ok cs) :
    ∃ w, Same v w ∧ Text.unmarshalInto V31.table N (.named n) (zero V31.table (.named n)) cs = some w ∧
      Text.unmarshalInto V31.table N (.named n) w cs = some w := by
  obtain ⟨j, w, he, hs, h1, h2⟩ := C102_written31 N (.named n) v h
  obtain ⟨j', he', _, hp⟩ := written_json wide31 hv hw
  rw [he] at he'
  cases he'
  exact ⟨w, hs, by simp only [Text.unmarshalInto, hp, h1], by simp only [Text.unmarshalInto, hp, h2]⟩

/-! ## What stays -/

/-- **C108** (3.0): when the text of a file is read into a document, the paths that the file does not have keep their path
items, and those that it has get a new one with what the file says. -/
theorem C108_paths30 (N : Nums) (cs : List Char) (ms : List (String × Any)) (ht : JSONText cs (.obj ms)) (cur w : Val)
    (h : Text.unmarshalInto V30.table N (.named "Spec") cur cs = some w) (p : String) (hp : Slashed p) :
    ((∀ k ∈ ms.map Prod.fst, ¬ SameName "paths" k) → pathEntry w p = pathEntry cur p) ∧
    (∀ ps pre post, ms = pre ++ ("paths", .obj ps) :: post → (∀ k ∈ (pre ++ post).map Prod.fst, ¬ SameName "paths" k) →
      (∀ x, lastValue ps p = some x →
        ∃ i, decodeInto V30.table N (.named "PathItem") (zero V30.table (.named "PathItem")) x = some i ∧
          pathEntry w p = some i) ∧
      (lastValue ps p = none → pathEntry w p = pathEntry cur p)) :=
  C102_paths30 N ms cur w (into_read ht h) p hp

/-- **C108** (3.1), likewise. -/
theorem C108_paths31 (N : Nums) (cs : List Char) (ms : List (String × Any)) (ht : JSONText cs (.obj ms)) (cur w : Val)
    (h : Text.unmarshalInto V31.table N (.named "Spec") cur cs = some w) (p : String) (hp : Slashed p) :
    ((∀ k ∈ ms.map Prod.fst, ¬ SameName "paths" k) → pathEntry w p = pathEntry cur p) ∧
    (∀ ps pre post, ms = pre ++ ("paths", .obj ps) :: post → (∀ k ∈ (pre ++ post).map Prod.fst, ¬ SameName "paths" k) →
      (∀ x, lastValue ps p = some x →
        ∃ i, decodeInto V31.table N (.named "PathItem") (zero V31.table (.named "PathItem")) x = some i ∧
          pathEntry w p = some i) ∧
      (lastValue ps p = none → pathEntry w p = pathEntry cur p)) :=
  C102_paths31 N ms cur w (into_read ht h) p hp

/-! ## YAML -/

/-- **C108.** Reading YAML into a document is reading the JSON that the YAML stands for into it. -/
theorem C108_yaml (T : Table) (N : Nums) (Y : YamlLib) (sprint : Yv → String) (o : YOrder) (scalarJSON : Any → Option Any)
    (hs : ∀ s j, scalarJSON s = some j → NumbersOk j) (cur : Val) (data : String) (y : Yv) (j : Any)
    (hy : Y.unmarshal data = some y) (hj : marshalDyn scalarJSON (convertMap sprint o [] y) = some j) (hd : depth j ≤ 10000) :
    Text.unmarshalYAMLInto T N Y sprint o scalarJSON cur data = decodeInto T N (.named "Spec") cur j := by
  simp only [Text.unmarshalYAMLInto, hy, hj, Text.unmarshalInto, Text.parse]
  rw [Text.parse_text (marshalDyn_numbers hs _ _ hj), if_pos (show depth j ≤ Text.maxDepth from hd)]

/-- **C108** (3.0): what a document holds makes no difference to whether YAML can be read into it. -/
theorem C108_yaml_accepted30 (N : Nums) (Y : YamlLib) (sprint : Yv → String) (o : YOrder) (scalarJSON : Any → Option Any)
    (cur : Val) (data : String) :
    (Text.unmarshalYAMLInto V30.table N Y sprint o scalarJSON cur data).isSome =
      (Text.unmarshalYAML V30.table N Y sprint o scalarJSON data).isSome := by
  unfold Text.unmarshalYAMLInto Text.unmarshalYAML
  cases Y.unmarshal data with
  | none => rfl
  | some y =>
    simp only
    cases marshalDyn scalarJSON (convertMap sprint o [] y) with
    | none => rfl
    | some j => exact C108_accepted30 N _ cur _

/-- **C108** (3.1), if the scheme of every HTTP security scheme is given. -/
theorem C108_yaml_accepted31 (N : Nums) (Y : YamlLib) (sprint : Yv → String) (o : YOrder) (scalarJSON : Any → Option Any)
    (hs : ∀ s j, scalarJSON s = some j → NumbersOk j) (cur : Val) (data : String)
    (h : ∀ y j, Y.unmarshal data = some y → marshalDyn scalarJSON (convertMap sprint o [] y) = some j →
      SchemesGiven (.named "Spec") j) :
    (Text.unmarshalYAMLInto V31.table N Y sprint o scalarJSON cur data).isSome =
      (Text.unmarshalYAML V31.table N Y sprint o scalarJSON data).isSome := by
  unfold Text.unmarshalYAMLInto Text.unmarshalYAML
  cases hy : Y.unmarshal data with
  | none => rfl
  | some y =>
    simp only
    cases hj : marshalDyn scalarJSON (convertMap sprint o [] y) with
    | none => rfl
    | some j =>
      refine C108_accepted31 N _ cur _ fun j' hj' => ?_
      rw [C95_unique _ _ _ hj' (Text.text_json (marshalDyn_numbers hs _ _ hj))]
      exact h y j hy hj

mutual
theorem reordered_distinct {L : String → String → Prop} : ∀ (a b : Any), Reordered L a b → Distinct a → Distinct b
  | .null, b, h, _ => by simp only [Reordered] at h; rw [h]; trivial
  | .bool _, b, h, _ => by simp only [Reordered] at h; rw [h]; trivial
  | .str _, b, h, _ => by simp only [Reordered] at h; rw [h]; trivial
  | .num _, b, h, _ => by simp only [Reordered] at h; obtain ⟨_, rfl, _⟩ := h; trivial
  | .arr xs, b, h, hd => by
    simp only [Reordered] at h
    obtain ⟨ys, rfl, h⟩ := h
    exact reorderedList_distinct xs ys h hd
  | .obj ms, b, h, hd => by
    simp only [Reordered] at h
    obtain ⟨ps, ns, rfl, h, hp⟩ := h
    obtain ⟨h1, h2⟩ := reorderedMembers_distinct ms ps h hd.2
    refine ⟨(hp.map Prod.fst).nodup_iff.mp (h1 ▸ hd.1), ?_⟩
    rw [distinctMembers_iff] at h2 ⊢
    exact fun p h => h2 p (hp.mem_iff.mpr h)
theorem reorderedList_distinct {L : String → String → Prop} : ∀ (a b : List Any), ReorderedList L a b → DistinctList a →
    DistinctList b
  | [], b, h, _ => by simp only [ReorderedList] at h; rw [h]; trivial
  | x :: xs, b, h, hd => by
    simp only [ReorderedList] at h
    obtain ⟨y, rest, rfl, h1, h2⟩ := h
    exact ⟨reordered_distinct x y h1 hd.1, reorderedList_distinct xs rest h2 hd.2⟩
theorem reorderedMembers_distinct {L : String → String → Prop} : ∀ (a b : List (String × Any)), ReorderedMembers L a b →
    DistinctMembers a → b.map Prod.fst = a.map Prod.fst ∧ DistinctMembers b
  | [], b, h, _ => by simp only [ReorderedMembers] at h; rw [h]; exact ⟨rfl, trivial⟩
  | (k, x) :: xs, b, h, hd => by
    simp only [ReorderedMembers] at h
    obtain ⟨y, rest, rfl, h1, h2⟩ := h
    obtain ⟨e, h3⟩ := reorderedMembers_distinct xs rest h2 hd.2
    exact ⟨by simp [e], reordered_distinct x y h1 hd.1, h3⟩
end

/-- The JSON by way of which a document is read from the YAML that was written for it. -/
theorem yaml_by_way {T : Table} (hT : Text.wideTable T = true) (hRk : Ranked T) {s : Struct}
    (hsp : GoMap.get? T "Spec" = some (.struct s)) (hrq : "openapi" ∈ s.require) {N : Nums} {Y : YamlLib}
    {sprint : Yv → String} {sj : Any → Option Any} {Back : String → String → Prop}
    {v : Val} (hv : Numeric v) {j : Any} {u : Val}
    (hj : encode T (.named "Spec") v = some j) (hdp : depth j ≤ 10000) (hu : decode T N (.named "Spec") j = some u)
    (hc : ClearAs T (.named "Spec") j) (hn : ∀ lit ∈ literals j, Survives N Back lit)
    (hY : ∀ items, decodeAny N j = some (.obj items) → Faithful Y sprint sj Back items) :
    ∃ text y, Text.marshalYAML T N Y v = .ok text ∧ Y.unmarshal text = some y ∧
      ∀ o, ∃ b, marshalDyn sj (convertMap sprint o [] y) = some b ∧ depth b ≤ 10000 ∧ ClearAs T (.named "Spec") b ∧
        ∃ w, decode T N (.named "Spec") b = some w ∧ ReorderedVal u w := by
  obtain ⟨ms, rfl⟩ := spec_obj hRk hsp hrq hu
  have hd := hc.1
  obtain ⟨items, hit⟩ := decodeAnyMembers_literals (N := N) ms
    (fun x hx => by obtain ⟨y, hy, _⟩ := hn x hx; exact ⟨y, hy⟩)
  have hk : (items.map Prod.fst).Nodup := by rw [decodeAnyMembers_keys hit]; exact hd.1
  have hany : decodeAny N (.obj ms) = some (.obj items) := by simp [decodeAny, hit, lastWins_nodup hk]
  obtain ⟨text, y, ht, hy, hst⟩ := hY items hany
  have hm : marshalYAML T N Y v = some text := by
    simp only [marshalYAML, hj, (C40_ordered N ms _ hit).2 hd.1, ht]
  refine ⟨text, y, ?_, hy, fun o => ?_⟩
  · rw [yaml_writes hT N Y v hv (fun j' hj' => by rw [hj] at hj'; cases hj'; exact hdp), hm]
  · obtain ⟨b, hb, hr⟩ := convert_stands (o := o) _ _ [] (decodeAny_distinct hany) hst
    obtain ⟨text', w, h1, h2, h3⟩ := yaml_document (o := o) hRk hsp hrq hj hu hc hn hY
    rw [hm] at h1
    cases h1
    simp only [unmarshalYAML, hy, hb] at h2
    refine ⟨b, hb, ?_, ?_, w, h2, h3⟩
    · rw [reordered_depth _ _ hr, reordered_depth _ _ (decodeAny_reordered _ _ hd hany)]
      exact hdp
    · exact clearAs_reordered (decodeAny_clear hc hany) (reordered_distinct _ _ hr (decodeAny_distinct hany)) hr

/-- **C108** (3.0): a document that is written as YAML can be read into a new document, which is then the same up to the order
of map entries; reading the YAML again into that document changes nothing, and it can be read into any document. -/
theorem C108_yaml30 (N : Nums) (Y : YamlLib) (sprint : Yv → String) (scalarJSON : Any → Option Any)
    (hs : ∀ s j, scalarJSON s = some j → NumbersOk j) (Back : String → String → Prop) (v : Val) (hv : Numeric v)
    (h : Writable V30.table N ok30 (.named "Spec") v) (hf : Everywhere noDerived v)
    (j : Any) (hj : encode V30.table (.named "Spec") v = some j) (hd : depth j ≤ 10000)
    (hn : ∀ lit ∈ literals j, Survives N Back lit)
    (hY : ∀ items, decodeAny N j = some (.obj items) → Faithful Y sprint scalarJSON Back items) :
    ∃ text u, Text.marshalYAML V30.table N Y v = .ok text ∧ Same v u ∧ ∀ o, ∃ w, ReorderedVal u w ∧
      Text.unmarshalYAMLInto V30.table N Y sprint o scalarJSON (zero V30.table (.named "Spec")) text = some w ∧
      Text.unmarshalYAMLInto V30.table N Y sprint o scalarJSON w text = some w ∧
      ∀ cur, (Text.unmarshalYAMLInto V30.table N Y sprint o scalarJSON cur text).isSome = true := by
  obtain ⟨j', u, hj', hu, hsm⟩ := C35_roundtrip30 N _ v h
  rw [hj] at hj'
  cases hj'
  obtain ⟨text, y, h1, hy, hall⟩ := yaml_by_way wide30 ranked30 (s := V30.sSpec) (by decide +kernel) (by decide +kernel)
    hv hj hd hu (C75_spellings30 N _ v h hf j hj) hn hY
  refine ⟨text, u, h1, hsm, fun o => ?_⟩
  obtain ⟨b, hb, hbd, hbc, w, hw, hr⟩ := hall o
  have ha := clearAs_readsAlike (N := N) hbc
  have e := fun cur => C108_yaml V30.table N Y sprint o scalarJSON hs cur text y b hy hb hbd
  have hz := (C102_new30 N _ b ha).trans hw
  refine ⟨w, hr, (e _).trans hz, (e _).trans (C102_again30 N _ b ha w hz), fun cur => ?_⟩
  rw [e, C102_accepted30, hw]
  rfl

/-- **C108** (3.1): likewise; that the YAML can be read into any document needs that the schemes are given. -/
theorem C108_yaml31 (N : Nums) (Y : YamlLib) (sprint : Yv → String) (scalarJSON : Any → Option Any)
    (hs : ∀ s j, scalarJSON s = some j → NumbersOk j) (Back : String → String → Prop) (v : Val) (hv : Numeric v)
    (h : Writable V31.table N ok31 (.named "Spec") v)
    (j : Any) (hj : encode V31.table (.named "Spec") v = some j) (hd : depth j ≤ 10000)
    (hn : ∀ lit ∈ literals j, Survives N Back lit)
    (hY : ∀ items, decodeAny N j = some (.obj items) → Faithful Y sprint scalarJSON Back items) :
    ∃ text u, Text.marshalYAML V31.table N Y v = .ok text ∧ Same v u ∧ ∀ o, ∃ w, ReorderedVal u w ∧
      Text.unmarshalYAMLInto V31.table N Y sprint o scalarJSON (zero V31.table (.named "Spec")) text = some w ∧
      Text.unmarshalYAMLInto V31.table N Y sprint o scalarJSON w text = some w := by
  obtain ⟨j', u, hj', hu, hsm⟩ := C35_roundtrip31 N _ v h
  rw [hj] at hj'
  cases hj'
  obtain ⟨text, y, h1, hy, hall⟩ := yaml_by_way wide31 ranked31 (s := V31.sSpec) (by decide +kernel) (by decide +kernel)
    hv hj hd hu (C75_spellings31 N _ v h j hj) hn hY
  refine ⟨text, u, h1, hsm, fun o => ?_⟩
  obtain ⟨b, hb, hbd, hbc, w, hw, hr⟩ := hall o
  have ha := clearAs_readsAlike (N := N) hbc
  have e := fun cur => C108_yaml V31.table N Y sprint o scalarJSON hs cur text y b hy hb hbd
  have hz := (C102_new31 N _ b ha).trans hw
  exact ⟨w, hr, (e _).trans hz, (e _).trans (C102_again31 N _ b ha w hz)⟩

/-- **C108.** YAML that cannot be read, or does not stand for JSON, is not read into anything. -/
theorem C108_yaml_rejects (T : Table) (N : Nums) (Y : YamlLib) (sprint : Yv → String) (o : YOrder)
    (scalarJSON : Any → Option Any) (cur : Val) (data : String)
    (h : ∀ y, Y.unmarshal data = some y → marshalDyn scalarJSON (convertMap sprint o [] y) = none) :
    Text.unmarshalYAMLInto T N Y sprint o scalarJSON cur data = none := by
  unfold Text.unmarshalYAMLInto
  cases hy : Y.unmarshal data with
  | none => rfl
  | some y => simp only [h y hy]

/-! ## The hypotheses are met -/

/-- Texts of the sample documents. -/
theorem C108_case30 : Writable V30.table sampleNums ok30 (.named "Spec") sample30 ∧ Everywhere noDerived sample30 ∧
    Numeric sample30 ∧ ∃ cs, Text.marshal V30.table (.named "Spec") sample30 = .ok cs :=
  ⟨C75_case30.1, C75_case30.2, C94_case30.1, C94_case30.2⟩
theorem C108_case31 : Writable V31.table sampleNums ok31 (.named "Spec") sample31 ∧
    Numeric sample31 ∧ ∃ cs, Text.marshal V31.table (.named "Spec") sample31 = .ok cs :=
  ⟨C75_case31, C94_case31.1, C94_case31.2⟩

/-- YAML of the sample documents. -/
theorem C108_yaml_case30 (sprint : Yv → String) :
    let Y := oneDocument (yamlOf V30.table sampleNums sample30)
    ∃ text u, Text.marshalYAML V30.table sampleNums Y sample30 = .ok text ∧ Same sample30 u ∧ ∀ o, ∃ w, ReorderedVal u w ∧
      Text.unmarshalYAMLInto V30.table sampleNums Y sprint o jsonScalar (zero V30.table (.named "Spec")) text = some w ∧
      Text.unmarshalYAMLInto V30.table sampleNums Y sprint o jsonScalar w text = some w ∧
      ∀ cur, (Text.unmarshalYAMLInto V30.table sampleNums Y sprint o jsonScalar cur text).isSome = true :=
  C108_yaml30 sampleNums _ sprint jsonScalar jsonScalar_ok Eq sample30 C94_case30.1 C75_case30.1 C75_case30.2
    (written V30.table "Spec" sample30) (encode_written (by decide +kernel)) (by decide +kernel)
    (fun lit _ => sample_survives lit) (sample_faithful_json sprint (by decide +kernel) (by decide +kernel))

theorem C108_yaml_case31 (sprint : Yv → String) :
    let Y := oneDocument (yamlOf V31.table sampleNums sample31)
    ∃ text u, Text.marshalYAML V31.table sampleNums Y sample31 = .ok text ∧ Same sample31 u ∧ ∀ o, ∃ w, ReorderedVal u w ∧
      Text.unmarshalYAMLInto V31.table sampleNums Y sprint o jsonScalar (zero V31.table (.named "Spec")) text = some w ∧
      Text.unmarshalYAMLInto V31.table sampleNums Y sprint o jsonScalar w text = some w :=
  C108_yaml31 sampleNums _ sprint jsonScalar jsonScalar_ok Eq sample31 C94_case31.1 C75_case31
    (written V31.table "Spec" sample31) (encode_written (by decide +kernel)) (by decide +kernel)
    (fun lit _ => sample_survives lit) (sample_faithful_json sprint (by decide +kernel) (by decide +kernel))

/-- Two files that are read into the same document one after the other, with white space in them. -/
theorem C108_merge_case (N : Nums) :
    let old := (Text.unmarshalInto V31.table N (.named "Spec") (zero V31.table (.named "Spec"))
      "{\"openapi\": \"3.1.0\", \"info\": {\"title\":\"a\",\"version\":\"1\"}, \"paths\": {\"/a\": {\"summary\":\"s\"}}}".toList).getD .nil
    let new := Text.unmarshalInto V31.table N (.named "Spec") old
      " {\"openapi\":\"3.1.0\",\"info\":{\"title\":\"b\",\"version\":\"1\"},\"paths\":{\"/b\":{}}}".toList
    new.isSome = true ∧ readField "Summary" (pathEntry (new.getD .nil) "/a") = some (.str "s") ∧
      (pathEntry (new.getD .nil) "/b").isSome = true ∧ pathEntry old "/b" = none :=
  ⟨by kernel_rfl, by kernel_rfl, by kernel_rfl, by kernel_rfl⟩

end Verif
