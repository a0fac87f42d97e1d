import Verif.Lemmas.TextYaml
import Verif.Props.Text
import Verif.Props.YamlDoc

/-!
YAML on texts (C96).
-/

namespace Verif
open Codec Spec Grammar

/-- **C96.** On every JSON text of a value, whatever white space and escapes it has, repeated calls of `Decoder.Token`
return the tokens of the value and then end, if all its numbers can be read as `float64`. -/
theorem C96_tokens (N : Nums) (cs : List Char) (j : Any) (h : JSONText cs j)
    (hr : ∀ lit ∈ literals j, ∃ x, N.f64 lit = some x) :
    ∃ d, Text.Yields N (Text.newDecoder cs) (tokens j) d ∧ d.token N = none := Text.yields_text h hr

theorem keysText_obj {N : Nums} {cs : List Char} {ms : List (String × Any)} (h : JSONText cs (.obj ms))
    (hr : ∀ lit ∈ literals (.obj ms), ∃ x, N.f64 lit = some x) : Text.objectKeysText N cs = some (ms.map Prod.fst) := by
  obtain ⟨e, hy, _⟩ := Text.yields_text h hr
  have hl := Text.yields_length hy
  simp only [tokens] at hy hl
  simp only [List.length_cons, List.length_append, Text.newDecoder] at hl
  cases hy with
  | cons ht hr =>
    unfold Text.objectKeysText
    rw [ht]
    exact Text.keys_rel _ _ _ _ hr (keysLoop_members ms _ [] (by omega))

/-- **C96.** The keys of a JSON object are found in its text in the order of the text, as often as they occur, whatever the
layout of the text and whatever the values are. -/
theorem C96_keys (N : Nums) (cs : List Char) (ms : List (String × Any)) (h : JSONText cs (.obj ms))
    (hr : ∀ lit ∈ literals (.obj ms), ∃ x, N.f64 lit = some x) :
    Text.objectKeysText N cs = some (ms.map Prod.fst) := keysText_obj h hr

/-- **C96.** A text of anything but an object has no keys to report: an error. -/
theorem C96_not_object (N : Nums) (cs : List Char) (j : Any) (h : JSONText cs j) (hj : ∀ ms, j ≠ .obj ms) :
    Text.objectKeysText N cs = none := by
  unfold Text.objectKeysText
  split
  · rename_i d hd
    exfalso
    obtain ⟨a, t, b, rfl, ha, ht, hb⟩ := h
    have hd' : Text.token N .top [] (t ++ b) = some (.openObj, d) := by
      rw [← Text.token_blanks ha]; exact hd
    have hne : ∀ r, t ++ b ≠ '{' :: r := by
      intro r e
      cases ht with
      | number hN =>
        obtain ⟨c, t', rfl, hc⟩ := Text.number_head hN
        cases e
        rcases hc with hc | hc <;> revert hc <;> decide
      | emptyObject => exact hj _ rfl
      | object => exact hj _ rfl
      | _ => cases e
    obtain ⟨c, r, e, hs, _⟩ := Text.denotes_head ht
    rw [e, List.cons_append] at hd' hne
    rw [Text.token, if_neg (by simp [hs])] at hd'
    have hc : c ≠ '{' := fun e => hne _ (by rw [e])
    by_cases h1 : c = '['
    · subst h1; simp [Text.valueAllowed] at hd'
    by_cases h2 : c = ']'
    · subst h2; simp at hd'
    by_cases h3 : c = '}'
    · subst h3; simp at hd'
    by_cases h4 : c = ':'
    · subst h4; simp at hd'
    by_cases h5 : c = ','
    · subst h5; simp at hd'
    rw [if_neg h1, if_neg h2, if_neg hc, if_neg h3, if_neg h4, if_neg h5] at hd'
    rw [if_neg (by simp), if_pos (show Text.valueAllowed .top = true from rfl)] at hd'
    split at hd'
    · rename_i v r' _
      split at hd'
      · rename_i t' ht'
        have e' := congrArg Prod.fst (Option.some.inj hd')
        simp only at e'
        subst e'
        unfold Text.scalarToken at ht'
        split at ht'
        · cases ht'
        · split at ht' <;> cases ht'
        · cases ht'
      · cases hd'
    · cases hd'
  · rfl

mutual
theorem literals_decodeAny {N : Nums} : ∀ (j : Any), (decodeAny N j).isSome = true → ∀ x ∈ literals j, ∃ y, N.f64 x = some y
  | .null, _, x, hx => by simp [literals] at hx
  | .bool _, _, x, hx => by simp [literals] at hx
  | .str _, _, x, hx => by simp [literals] at hx
  | .num lit, h, x, hx => by
    simp only [literals, List.mem_singleton] at hx
    subst hx
    simp only [decodeAny, Option.isSome_map] at h
    exact Option.isSome_iff_exists.1 h
  | .arr xs, h, x, hx => by
    simp only [decodeAny, Option.isSome_map] at h
    exact literals_decodeAnys xs h x hx
  | .obj ms, h, x, hx => by
    simp only [decodeAny, Option.isSome_map] at h
    exact literals_decodeAnyMembers ms h x hx
theorem literals_decodeAnys {N : Nums} : ∀ (xs : List Any), (decodeAnys N xs).isSome = true →
    ∀ x ∈ literalsList xs, ∃ y, N.f64 x = some y
  | [], _, x, hx => by simp [literalsList] at hx
  | v :: vs, h, x, hx => by
    simp only [decodeAnys] at h
    split at h
    · rename_i hv hvs
      simp only [literalsList, List.mem_append] at hx
      rcases hx with hx | hx
      · exact literals_decodeAny v (by rw [hv]; rfl) x hx
      · exact literals_decodeAnys vs (by rw [hvs]; rfl) x hx
    · cases h
theorem literals_decodeAnyMembers {N : Nums} : ∀ (ms : List (String × Any)), (decodeAnyMembers N ms).isSome = true →
    ∀ x ∈ literalsMembers ms, ∃ y, N.f64 x = some y
  | [], _, x, hx => by simp [literalsMembers] at hx
  | (k, v) :: vs, h, x, hx => by
    simp only [decodeAnyMembers] at h
    split at h
    · rename_i hv hvs
      simp only [literalsMembers, List.mem_append] at hx
      rcases hx with hx | hx
      · exact literals_decodeAny v (by rw [hv]; rfl) x hx
      · exact literals_decodeAnyMembers vs (by rw [hvs]; rfl) x hx
    · cases h
end

/-- **C96.** The items that are written to YAML are found in the text exactly as they are in its value: the layout of the
text does not matter. -/
theorem C96_items (N : Nums) (cs : List Char) (j : Any) (h : JSONText cs j) (hd : depth j ≤ 10000) :
    Text.orderedMapText N cs = orderedMap N j := by
  unfold Text.orderedMapText
  rw [(C95_parse cs j).2 ⟨h, hd⟩]
  unfold orderedMap
  simp only
  cases hm : decodeMap N j with
  | none => rfl
  | some m =>
    simp only
    cases j with
    | obj ms =>
      rw [C40_keys, C96_keys N cs ms h]
      refine literals_decodeAnyMembers ms ?_
      simp only [decodeMap] at hm
      cases hx : decodeAnyMembers N ms with
      | none => rw [hx] at hm; cases hm
      | some ds => rfl
    | null => rw [C96_not_object N cs .null h (by simp), C40_not_object _ (by simp)]
    | bool b => cases hm
    | num b => cases hm
    | str b => cases hm
    | arr b => cases hm

/-- **C96.** A text that is not JSON, or is nested too deeply, has no items. -/
theorem C96_rejects (N : Nums) (cs : List Char) (h : ∀ j, JSONText cs j → 10000 < depth j) :
    Text.orderedMapText N cs = none := by
  unfold Text.orderedMapText
  cases hp : Text.parse cs with
  | none => rfl
  | some j =>
    obtain ⟨h1, h2⟩ := (C95_parse cs j).1 hp
    have := h j h1
    omega

/-! ## Documents -/

theorem yaml_writes {T : Table} (hT : Text.wideTable T = true) (N : Nums) (Y : YamlLib) (v : Val) (hv : Numeric v)
    (hd : ∀ j, encode T (.named "Spec") v = some j → depth j ≤ 10000) :
    Text.marshalYAML T N Y v = match marshalYAML T N Y v with
      | some s => .ok s
      | none => .err := by
  unfold Text.marshalYAML marshalYAML
  rw [marshal_named hT _ v hv]
  cases he : encode T (.named "Spec") v with
  | none => rfl
  | some j =>
    simp only [if_pos (hd j he)]
    rw [C96_items N (text j) j (Text.text_json (Text.encode_numbers hv he)) (hd j he)]
    cases orderedMap N j with
    | none => rfl
    | some items => simp only; split <;> simp_all

/-- **C96.** Writing a document of OpenAPI 3.0 as YAML by way of its JSON text gives what the JSON value gives; it never
panics. -/
theorem C96_writes30 (N : Nums) (Y : YamlLib) (v : Val) (hv : Numeric v)
    (hd : ∀ j, encode V30.table (.named "Spec") v = some j → depth j ≤ 10000) :
    Text.marshalYAML V30.table N Y v = match marshalYAML V30.table N Y v with
      | some s => .ok s
      | none => .err := yaml_writes wide30 N Y v hv hd

/-- **C96** for OpenAPI 3.1. -/
theorem C96_writes31 (N : Nums) (Y : YamlLib) (v : Val) (hv : Numeric v)
    (hd : ∀ j, encode V31.table (.named "Spec") v = some j → depth j ≤ 10000) :
    Text.marshalYAML V31.table N Y v = match marshalYAML V31.table N Y v with
      | some s => .ok s
      | none => .err := yaml_writes wide31 N Y v hv hd

mutual
theorem reordered_depth {L : String → String → Prop} : ∀ (a b : Any), Reordered L a b → depth b = depth a
  | .null, b, h => by simp only [Reordered] at h; rw [h]
  | .bool _, b, h => by simp only [Reordered] at h; rw [h]
  | .str _, b, h => by simp only [Reordered] at h; rw [h]
  | .num _, b, h => by simp only [Reordered] at h; obtain ⟨_, rfl, _⟩ := h; rfl
  | .arr xs, b, h => by
    simp only [Reordered] at h
    obtain ⟨ys, rfl, h⟩ := h
    simp only [depth, reorderedList_depth xs ys h]
  | .obj ms, b, h => by
    simp only [Reordered] at h
    obtain ⟨ps, ns, rfl, h, hp⟩ := h
    simp only [depth]
    rw [← reorderedMembers_depth ms ps h]
    have key : ∀ d, depthMembers ns ≤ d ↔ depthMembers ps ≤ d := by
      intro d
      rw [Text.depthMembers_le, Text.depthMembers_le]
      exact ⟨fun h m hm => h m (hp.mem_iff.1 hm), fun h m hm => h m (hp.mem_iff.2 hm)⟩
    have h1 := (key (depthMembers ps)).2 (Nat.le_refl _)
    have h2 := (key (depthMembers ns)).1 (Nat.le_refl _)
    omega
theorem reorderedList_depth {L : String → String → Prop} : ∀ (a b : List Any), ReorderedList L a b →
    depthList b = depthList a
  | [], b, h => by simp only [ReorderedList] at h; rw [h]
  | x :: xs, b, h => by
    simp only [ReorderedList] at h
    obtain ⟨y, rest, rfl, h1, h2⟩ := h
    simp only [depthList, reordered_depth x y h1, reorderedList_depth xs rest h2]
theorem reorderedMembers_depth {L : String → String → Prop} : ∀ (a b : List (String × Any)), ReorderedMembers L a b →
    depthMembers b = depthMembers a
  | [], b, h => by simp only [ReorderedMembers] at h; rw [h]
  | (k, x) :: xs, b, h => by
    simp only [ReorderedMembers] at h
    obtain ⟨y, rest, rfl, h1, h2⟩ := h
    simp only [depthMembers, reordered_depth x y h1, reorderedMembers_depth xs rest h2]
end

mutual
theorem marshalDyn_numbers {sj : Any → Option Any} (hs : ∀ s j, sj s = some j → NumbersOk j) :
    ∀ (y : Yv) (j : Any), marshalDyn sj y = some j → NumbersOk j
  | .scalar v, j, h => hs v j (by simpa [marshalDyn] using h)
  | .mapI _, j, h => by simp [marshalDyn] at h
  | .seq xs, j, h => by
    simp only [marshalDyn] at h
    rw [Option.map_eq_some_iff] at h
    obtain ⟨l, hl, rfl⟩ := h
    exact marshalDynList_numbers hs xs l hl
  | .mapS ms, j, h => by
    simp only [marshalDyn] at h
    rw [Option.map_eq_some_iff] at h
    obtain ⟨l, hl, rfl⟩ := h
    exact marshalDynMembers_numbers hs ms l hl
theorem marshalDynList_numbers {sj : Any → Option Any} (hs : ∀ s j, sj s = some j → NumbersOk j) :
    ∀ (ys : List Yv) (l : List Any), marshalDynList sj ys = some l → NumbersOkList l
  | [], l, h => by simp only [marshalDynList, Option.some.injEq] at h; rw [← h]; trivial
  | y :: ys, l, h => by
    simp only [marshalDynList] at h
    split at h
    · rename_i h1 h2
      cases h
      exact ⟨marshalDyn_numbers hs y _ h1, marshalDynList_numbers hs ys _ h2⟩
    · cases h
theorem marshalDynMembers_numbers {sj : Any → Option Any} (hs : ∀ s j, sj s = some j → NumbersOk j) :
    ∀ (ys : List (String × Yv)) (l : List (String × Any)), marshalDynMembers sj ys = some l → NumbersOkMembers l
  | [], l, h => by simp only [marshalDynMembers, Option.some.injEq] at h; rw [← h]; trivial
  | (k, y) :: ys, l, h => by
    simp only [marshalDynMembers] at h
    split at h
    · rename_i h1 h2
      cases h
      exact ⟨marshalDyn_numbers hs y _ h1, marshalDynMembers_numbers hs ys _ h2⟩
    · cases h
end

/-- **C96.** Reading a document from YAML by way of the JSON text that is written for the YAML value gives what the YAML
value itself gives, unless it is nested too deeply. -/
theorem C96_reads (T : Table) (N : Nums) (Y : YamlLib) (sprint : Yv → String) (o : YOrder) (scalarJSON : Any → Option Any)
    (hs : ∀ s j, scalarJSON s = some j → NumbersOk j) (data : String)
    (hd : ∀ y j, Y.unmarshal data = some y → marshalDyn scalarJSON (convertMap sprint o [] y) = some j → depth j ≤ 10000) :
    Text.unmarshalYAML T N Y sprint o scalarJSON data = unmarshalYAML T N Y sprint o scalarJSON data := by
  unfold Text.unmarshalYAML unmarshalYAML
  cases hy : Y.unmarshal data with
  | none => rfl
  | some y =>
    simp only
    cases hm : marshalDyn scalarJSON (convertMap sprint o [] y) with
    | none => rfl
    | some j =>
      simp only [Text.unmarshal, Text.parse]
      rw [Text.parse_text (marshalDyn_numbers hs _ _ hm), if_pos (show depth j ≤ Text.maxDepth from hd y j hy hm)]

theorem text_yaml {T : Table} (hT : Text.wideTable T = true) (hRk : Ranked T) {s : Struct}
    (hsp : GoMap.get? T "Spec" = some (.struct s)) (hrq : "openapi" ∈ s.require) {N : Nums} {Y : YamlLib}
    {sprint : Yv → String} {o : YOrder} {sj : Any → Option Any} {Back : String → String → Prop}
    (hsj : ∀ s j, sj s = some j → NumbersOk j) {v : Val} (hv : Numeric v) {j : Any} {u : Val}
    (hj : encode T (.named "Spec") v = some j) (hdp : depth j ≤ 10000) (hu : decode T N (.named "Spec") j = some u)
    (hc : ClearAs T (.named "Spec") j) (hn : ∀ lit ∈ literals j, Survives N Back lit)
    (hY : ∀ items, decodeAny N j = some (.obj items) → Faithful Y sprint sj Back items) :
    ∃ text w, Text.marshalYAML T N Y v = .ok text ∧ Text.unmarshalYAML T N Y sprint o sj text = some w ∧
      ReorderedVal u w := by
  obtain ⟨text, w, h1, h2, h3⟩ := yaml_document (o := o) hRk hsp hrq hj hu hc hn hY
  refine ⟨text, w, ?_, ?_, h3⟩
  · rw [yaml_writes hT N Y v hv (fun j' hj' => by rw [hj] at hj'; cases hj'; exact hdp), h1]
  · rw [C96_reads T N Y sprint o sj hsj text, h2]
    intro y b hy hb
    obtain ⟨ms, rfl⟩ := spec_obj hRk hsp hrq hu
    have hd := hc.1
    obtain ⟨items, hit⟩ := decodeAnyMembers_literals (N := N) ms
      (fun x hx => by obtain ⟨y, hy, _⟩ := hn x hx; exact ⟨y, hy⟩)
    have hk : (items.map Prod.fst).Nodup := by rw [decodeAnyMembers_keys hit]; exact hd.1
    have hany : decodeAny N (.obj ms) = some (.obj items) := by simp [decodeAny, hit, lastWins_nodup hk]
    obtain ⟨text', y', ht', hy', hst⟩ := hY items hany
    have e : text' = text := by
      simp only [marshalYAML, hj, (C40_ordered N ms _ hit).2 hd.1, ht'] at h1
      exact Option.some.inj h1
    subst e
    rw [hy] at hy'
    cases hy'
    obtain ⟨b', hb', hr⟩ := convert_stands (o := o) _ _ [] (decodeAny_distinct hany) hst
    rw [hb] at hb'
    cases hb'
    rw [reordered_depth _ _ hr, reordered_depth _ _ (decodeAny_reordered _ _ hd hany)]
    exact hdp

/-- **C96** for OpenAPI 3.0: a document that can be written as JSON and read again can be written as YAML and read again,
by way of the JSON texts the code writes and reads, with the same result up to the order of map entries. -/
theorem C96_yaml30 (N : Nums) (Y : YamlLib) (sprint : Yv → String) (o : YOrder) (scalarJSON : Any → Option Any)
    (hs : ∀ s j, scalarJSON s = some j → NumbersOk j) (Back : String → String → Prop) (v : Val) (hv : Numeric v)
    (h : Writable V30.table N ok30 (.named "Spec") v)
    (j : Any) (hj : encode V30.table (.named "Spec") v = some j) (hd : depth j ≤ 10000) (hc : ClearAs V30.table (.named "Spec") j)
    (hn : ∀ lit ∈ literals j, Survives N Back lit)
    (hY : ∀ items, decodeAny N j = some (.obj items) → Faithful Y sprint scalarJSON Back items) :
    ∃ text u w, Text.marshalYAML V30.table N Y v = .ok text ∧
      Text.unmarshalYAML V30.table N Y sprint o scalarJSON text = some w ∧ Same v u ∧ ReorderedVal u w := by
  obtain ⟨j', u, hj', hu, hsm⟩ := C35_roundtrip30 N _ v h
  rw [hj] at hj'
  cases hj'
  obtain ⟨text, w, h1, h2, h3⟩ := text_yaml (o := o) wide30 ranked30 (s := V30.sSpec) (by decide +kernel)
    (by decide +kernel) hs hv hj hd hu hc hn hY
  exact ⟨text, u, w, h1, h2, hsm, h3⟩

/-- **C96** for OpenAPI 3.0: a document that was not read from JSON has no key twice or in two spellings (C75). -/
theorem C96_fresh30 (N : Nums) (Y : YamlLib) (sprint : Yv → String) (o : YOrder) (scalarJSON : Any → Option Any)
    (hs : ∀ s j, scalarJSON s = some j → NumbersOk j) (Back : String → String → Prop) (v : Val) (hv : Numeric v)
    (h : Writable V30.table N ok30 (.named "Spec") v) (hf : Everywhere noDerived v)
    (j : Any) (hj : encode V30.table (.named "Spec") v = some j) (hd : depth j ≤ 10000)
    (hn : ∀ lit ∈ literals j, Survives N Back lit)
    (hY : ∀ items, decodeAny N j = some (.obj items) → Faithful Y sprint scalarJSON Back items) :
    ∃ text u w, Text.marshalYAML V30.table N Y v = .ok text ∧
      Text.unmarshalYAML V30.table N Y sprint o scalarJSON text = some w ∧ Same v u ∧ ReorderedVal u w :=
  C96_yaml30 N Y sprint o scalarJSON hs Back v hv h j hj hd (C75_spellings30 N _ v h hf j hj) hn hY

/-- **C96** for OpenAPI 3.1. -/
theorem C96_yaml31 (N : Nums) (Y : YamlLib) (sprint : Yv → String) (o : YOrder) (scalarJSON : Any → Option Any)
    (hs : ∀ s j, scalarJSON s = some j → NumbersOk j) (Back : String → String → Prop) (v : Val) (hv : Numeric v)
    (h : Writable V31.table N ok31 (.named "Spec") v)
    (j : Any) (hj : encode V31.table (.named "Spec") v = some j) (hd : depth j ≤ 10000)
    (hn : ∀ lit ∈ literals j, Survives N Back lit)
    (hY : ∀ items, decodeAny N j = some (.obj items) → Faithful Y sprint scalarJSON Back items) :
    ∃ text u w, Text.marshalYAML V31.table N Y v = .ok text ∧
      Text.unmarshalYAML V31.table N Y sprint o scalarJSON text = some w ∧ Same v u ∧ ReorderedVal u w := by
  obtain ⟨j', u, hj', hu, hsm⟩ := C35_roundtrip31 N _ v h
  rw [hj] at hj'
  cases hj'
  obtain ⟨text, w, h1, h2, h3⟩ := text_yaml (o := o) wide31 ranked31 (s := V31.sSpec) (by decide +kernel)
    (by decide +kernel) hs hv hj hd hu (C75_spellings31 N _ v h j hj) hn hY
  exact ⟨text, u, w, h1, h2, hsm, h3⟩

/-! ## Concrete cases -/

/-- A text with white space, a key written with an escape, nested objects whose keys do not count, brackets inside strings,
and a repeated key. -/
def sampleKeys : List Char :=
  " {\n \"b\" : {\"x\":[null,{ }], \"y\":\"}\"} ,\t\"\\u0061\":[ ], \"b\":-1.5e2, \"c]\\\"\" : {} }\r\n".toList

def sampleKeysValue : Any :=
  .obj [("b", .obj [("x", .arr [.null, .obj []]), ("y", .str "}")]), ("a", .arr []), ("b", .num "-1.5e2"), ("c]\"", .obj [])]

theorem C96_case : JSONText sampleKeys sampleKeysValue ∧ depth sampleKeysValue ≤ 10000 ∧
    Text.objectKeysText sampleNums sampleKeys = some ["b", "a", "b", "c]\""] :=
  ⟨((C95_parse _ _).1 (by kernel_rfl)).1, by decide +kernel, by kernel_rfl⟩

/-- The marshalling of scalars for the sample: numbers have to be JSON numbers. -/
def jsonScalar (a : Any) : Option Any := if Text.numbersB a then some a else none

theorem jsonScalar_ok (s j : Any) (h : jsonScalar s = some j) : NumbersOk j := by
  unfold jsonScalar at h
  split at h
  · cases h; exact Text.numbersB_sound _ (by assumption)
  · cases h

mutual
theorem asYaml_stands_json (sprint : Yv → String) : ∀ a, Text.numbersB a = true → Stands sprint jsonScalar Eq a (asYaml a)
  | .null, h => ⟨_, rfl, if_pos h⟩
  | .bool _, h => ⟨_, rfl, if_pos h⟩
  | .num _, h => ⟨_, _, rfl, if_pos h, rfl⟩
  | .str _, h => ⟨_, rfl, if_pos h⟩
  | .arr xs, h => ⟨_, rfl, asYamlList_stands_json sprint xs (by simpa [Text.numbersB] using h)⟩
  | .obj ms, h => ⟨_, _, rfl, asYamlMembers_stands_json sprint ms (by simpa [Text.numbersB] using h),
      (List.reverse_perm _).symm⟩
theorem asYamlList_stands_json (sprint : Yv → String) : ∀ a, Text.numbersListB a = true →
    StandsList sprint jsonScalar Eq a (asYamlList a)
  | [], _ => rfl
  | x :: xs, h => by
    simp only [Text.numbersListB, Bool.and_eq_true] at h
    exact ⟨_, _, rfl, asYaml_stands_json sprint x h.1, asYamlList_stands_json sprint xs h.2⟩
theorem asYamlMembers_stands_json (sprint : Yv → String) : ∀ a, Text.numbersMembersB a = true →
    StandsMembers sprint jsonScalar Eq a (asYamlMembers a)
  | [], _ => rfl
  | (_, x) :: ms, h => by
    simp only [Text.numbersMembersB, Bool.and_eq_true] at h
    exact ⟨_, _, _, rfl, rfl, asYaml_stands_json sprint x h.1, asYamlMembers_stands_json sprint ms h.2⟩
end

theorem sample_faithful_json {T : Table} {v : Val} (sprint : Yv → String)
    (h : eqA (yamlOf T sampleNums v) (yamlOf T sampleNums v) = true) (hn : Text.numbersB (yamlOf T sampleNums v) = true)
    (items : List (String × Any)) (hi : decodeAny sampleNums (written T "Spec" v) = some (.obj items)) :
    Faithful (oneDocument (yamlOf T sampleNums v)) sprint jsonScalar Eq items := by
  have e : yamlOf T sampleNums v = .obj items := by rw [yamlOf, hi]; rfl
  rw [e] at h hn ⊢
  exact ⟨"---", asYaml (.obj items), by simp [oneDocument, h], by simp [oneDocument], asYaml_stands_json sprint _ hn⟩

/-- The documents of C35 meet the hypotheses. -/
theorem C96_case30 (sprint : Yv → String) (o : YOrder) :
    ∃ text u w, Text.marshalYAML V30.table sampleNums (oneDocument (yamlOf V30.table sampleNums sample30)) sample30 = .ok text ∧
      Text.unmarshalYAML V30.table sampleNums (oneDocument (yamlOf V30.table sampleNums sample30)) sprint o jsonScalar text =
        some w ∧ Same sample30 u ∧ ReorderedVal u w :=
  C96_yaml30 sampleNums _ sprint o jsonScalar jsonScalar_ok Eq sample30 C94_case30.1 C35_case30
    (written V30.table "Spec" sample30) (encode_written (by decide +kernel)) (by decide +kernel) (clear_as C74_case30.1 _)
    (fun lit _ => sample_survives lit) (sample_faithful_json sprint (by decide +kernel) (by decide +kernel))

theorem C96_case31 (sprint : Yv → String) (o : YOrder) :
    ∃ text u w, Text.marshalYAML V31.table sampleNums (oneDocument (yamlOf V31.table sampleNums sample31)) sample31 = .ok text ∧
      Text.unmarshalYAML V31.table sampleNums (oneDocument (yamlOf V31.table sampleNums sample31)) sprint o jsonScalar text =
        some w ∧ Same sample31 u ∧ ReorderedVal u w :=
  C96_yaml31 sampleNums _ sprint o jsonScalar jsonScalar_ok Eq sample31 C94_case31.1 C35_case31
    (written V31.table "Spec" sample31) (encode_written (by decide +kernel)) (by decide +kernel)
    (fun lit _ => sample_survives lit) (sample_faithful_json sprint (by decide +kernel) (by decide +kernel))

end Verif
