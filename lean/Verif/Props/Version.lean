import Verif.Props.Complete

/-!
# What the two reflectors do differently (C60), and when they do not panic (C59)
-/

namespace Verif
open ParamSpec DocSpec
variable {S : Type}

/-! ## Media types of responses, exactly -/

theorem ensure_exact {v : Ver S} {ct format : String} {s s' : RespState S}
    (h : ensureResponseContentType v ct format s = (s', .ok)) :
    (∀ ct', ct' ≠ ct → s'.resp.content.get? ct' = s.resp.content.get? ct') ∧
    (∀ mt, s.resp.content.get? ct = some mt → s'.resp.content.get? ct = some mt) ∧
    (s.resp.content.get? ct = none → ∃ mt, PlainMedia v format mt ∧ s'.resp.content.get? ct = some mt) := by
  simp only [ensureResponseContentType, plainString_eq] at h
  split at h
  · rename_i mt hmt
    cases h
    exact ⟨fun _ _ => rfl, fun _ h => h, fun h => by rw [hmt] at h; cases h⟩
  · rename_i hnone
    split at h
    · rename_i sc hsc
      cases h
      refine ⟨fun ct' hne => by simp [GoMap.get?_set, hne], fun mt h => (by rw [hnone] at h; cases h), fun _ => ?_⟩
      exact ⟨_, ⟨sc, hsc, rfl⟩, GoMap.get?_set_self _ _ _⟩
    · cases h

theorem rawTag_exact {v : Ver S} {ct : String} {s s' : RespState S} (h : rawResponseTag v ct s = (s', .ok)) :
    (∀ ct', ct' ≠ ct → s'.resp.content.get? ct' = s.resp.content.get? ct') ∧
    (v.rawReplaces = false → ∀ mt, s.resp.content.get? ct = some mt → s'.resp.content.get? ct = some mt) ∧
    (v.rawReplaces = true ∨ s.resp.content.get? ct = none →
      ∃ mt, PlainMedia v "" mt ∧ s'.resp.content.get? ct = some mt) := by
  simp only [rawResponseTag] at h
  split at h
  · rename_i hv
    rw [plainString_eq] at h
    split at h
    · rename_i sc hsc
      cases h
      refine ⟨fun ct' hne => by simp [GoMap.get?_set, hne], fun hf => (by rw [hv] at hf; cases hf), fun _ => ?_⟩
      exact ⟨_, ⟨sc, hsc, rfl⟩, GoMap.get?_set_self _ _ _⟩
    · cases h
  · rename_i hv
    obtain ⟨h1, h2, h3⟩ := ensure_exact h
    refine ⟨h1, fun _ => h2, ?_⟩
    rintro (ht | hn)
    · exact absurd ht hv
    · exact h3 hn

theorem rawTags_exact {v : Ver S} {cts : List String} {s s' : RespState S}
    (h : foldActs (rawResponseTag v) cts s = (s', .ok)) (ct : String) :
    (ct ∉ cts → s'.resp.content.get? ct = s.resp.content.get? ct) ∧
    (v.rawReplaces = false → ∀ mt, s.resp.content.get? ct = some mt → s'.resp.content.get? ct = some mt) ∧
    (ct ∈ cts → v.rawReplaces = true ∨ s.resp.content.get? ct = none →
      ∃ mt, PlainMedia v "" mt ∧ s'.resp.content.get? ct = some mt) := by
  induction cts generalizing s with
  | nil => cases foldActs_nil_ok h; exact ⟨fun _ => rfl, fun _ _ h => h, nofun⟩
  | cons c cts ih =>
    obtain ⟨s1, h1, h2⟩ := foldActs_cons_ok h
    obtain ⟨a1, a2, a3⟩ := rawTag_exact h1
    obtain ⟨b1, b2, b3⟩ := ih h2
    refine ⟨?_, ?_, ?_⟩
    · intro hn
      simp only [List.mem_cons, not_or] at hn
      rw [b1 hn.2, a1 ct hn.1]
    · intro hf mt hmt
      refine b2 hf mt ?_
      by_cases he : ct = c
      · subst he; exact a2 hf mt hmt
      · rw [a1 ct he]; exact hmt
    · intro hm hor
      by_cases ht : ct ∈ cts
      · rcases hor with hv | hnone
        · exact b3 ht (.inl hv)
        · by_cases he : ct = c
          · subst he
            obtain ⟨mt, hp, hg⟩ := a3 (.inr hnone)
            cases hv : v.rawReplaces with
            | true => exact b3 ht (.inl hv)
            | false => exact ⟨mt, hp, b2 hv mt hg⟩
          · exact b3 ht (.inr (by rw [a1 ct he]; exact hnone))
      · have he : ct = c := by
          rcases List.mem_cons.mp hm with e | e
          · exact e
          · exact absurd e ht
        subst he
        obtain ⟨mt, hp, hg⟩ := a3 hor
        exact ⟨mt, hp, by rw [b1 ht]; exact hg⟩

/-- What happens to a media type of a response that is not written by JSON: tags and the content type of the
unit. -/
theorem reflectResponse_plain {v : Ver S} {env : Env S} {method : String} {cu : ContentUnit S} {r r' : RespState S}
    (h : reflectResponse v env method cu r = (r', .ok)) (hm : ¬ MethodIs method "head") (ct : String) :
    (HasRawTag cu ct → v.rawReplaces = true → ∃ mt, PlainMedia v "" mt ∧ r'.resp.content.get? ct = some mt) ∧
    ((∀ value, RespondsJSON env method cu value → jsonContentType cu ≠ ct) →
      (v.rawReplaces = false ∨ ¬ HasRawTag cu ct →
        ∀ mt, r.resp.content.get? ct = some mt → r'.resp.content.get? ct = some mt) ∧
      (r.resp.content.get? ct = none → HasRawTag cu ct →
        ∃ mt, PlainMedia v "" mt ∧ r'.resp.content.get? ct = some mt) ∧
      (r.resp.content.get? ct = none → ¬ HasRawTag cu ct → ct = cu.contentType → ct ≠ "" →
        ∃ mt, PlainMedia v cu.format mt ∧ r'.resp.content.get? ct = some mt)) := by
  simp only [reflectResponse, if_pos (show goToUpper method ≠ "HEAD" from mt (upper_head method).mp hm)] at h
  split at h
  · rename_i r3 hj
    obtain ⟨-, hj⟩ := joinActs_ok hj
    obtain ⟨r1, h1, hj⟩ := foldActs_cons_ok hj
    obtain ⟨r2, h2, hj⟩ := foldActs_cons_ok hj
    cases foldActs_nil_ok hj
    simp only [id] at h1 h2
    have b2 : r3.resp.content = r1.resp.content := by
      have := (parseResponseHeader_frame v env cu r1).1
      rw [h2] at this; exact this
    have hjson : (∀ value, RespondsJSON env method cu value → jsonContentType cu ≠ ct) →
        r3.resp.content.get? ct = r.resp.content.get? ct := by
      intro hno
      rw [b2]
      rcases parseJSONResponse_ok h1 with ⟨hn, rfl⟩ | ⟨refl, js, sc, hr, hres, hc, f1, f2, f3, f4, f5⟩
      · rfl
      · obtain ⟨value0, hv0, hno0, rfl⟩ := (reflectJSON_iff env cu refl).mp hr
        have := hno value0 ⟨hm, hv0, hno0⟩
        rw [f1, GoMap.get?_set, if_neg (fun e => this e.symm)]
    split at h
    · rename_i r4 h4
      have hraw : (¬ HasRawTag cu ct → r4.resp.content.get? ct = r3.resp.content.get? ct) ∧
          (v.rawReplaces = false → ∀ mt, r3.resp.content.get? ct = some mt → r4.resp.content.get? ct = some mt) ∧
          (HasRawTag cu ct → v.rawReplaces = true ∨ r3.resp.content.get? ct = none →
            ∃ mt, PlainMedia v "" mt ∧ r4.resp.content.get? ct = some mt) := by
        simp only [parseRawResponseBody] at h4
        split at h4
        · rename_i hs
          cases h4
          refine ⟨fun _ => rfl, fun _ _ h => h, ?_⟩
          rintro ⟨value, hv, -⟩
          rw [hs] at hv; cases hv
        · rename_i value hv
          obtain ⟨k1, k2, k3⟩ := rawTags_exact h4 ct
          refine ⟨fun hn => k1 fun hm => hn ⟨value, hv, hm⟩, k2, ?_⟩
          rintro ⟨value', hv', hm'⟩
          rw [hv] at hv'; cases hv'
          exact k3 hm'
      have hens : (∀ mt, r4.resp.content.get? ct = some mt → r'.resp.content.get? ct = some mt) ∧
          (r4.resp.content.get? ct = none → ct = cu.contentType → ct ≠ "" →
            ∃ mt, PlainMedia v cu.format mt ∧ r'.resp.content.get? ct = some mt) := by
        split at h
        · rename_i hct
          obtain ⟨e1, e2, e3⟩ := ensure_exact h
          by_cases he : ct = cu.contentType
          · rw [he]; exact ⟨e2, fun hn _ _ => e3 hn⟩
          · refine ⟨fun mt hmt => by rw [e1 ct he]; exact hmt, fun _ he' => absurd he' he⟩
        · rename_i hct
          cases h
          exact ⟨fun _ h => h, fun _ he hne => absurd (he ▸ hne) hct⟩
      obtain ⟨w1, w2, w3⟩ := hraw
      obtain ⟨x1, x2⟩ := hens
      refine ⟨fun ht hv => ?_, fun hno => ⟨fun hor mt hmt => ?_, fun hn ht => ?_, fun hn ht he hne => ?_⟩⟩
      · obtain ⟨mt, hp, hg⟩ := w3 ht (.inl hv)
        exact ⟨mt, hp, x1 mt hg⟩
      · refine x1 mt ?_
        rw [← hjson hno] at hmt
        by_cases ht : HasRawTag cu ct
        · rcases hor with hv | hv
          · exact w2 hv mt hmt
          · exact absurd ht hv
        · rw [w1 ht]; exact hmt
      · rw [← hjson hno] at hn
        obtain ⟨mt, hp, hg⟩ := w3 ht (.inr hn)
        exact ⟨mt, hp, x1 mt hg⟩
      · rw [← hjson hno] at hn
        refine x2 ?_ he hne
        rw [w1 ht]; exact hn
    · rename_i hne
      exact absurd h (hne _)
  · rename_i hne
    exact absurd h (hne _)

/-- The unit with its content type cut at the semicolon. -/
abbrev ContentUnit.cut (cu : ContentUnit S) : ContentUnit S := { cu with contentType := beforeSemicolon cu.contentType }

/-- C60: the media type of a response for a content type that the unit names by a tag or as its own content
type, and that its JSON response does not use. One that is there already stays, except that the 3.1 reflector
replaces it for a tag; otherwise it is a plain string, with the format of the unit for its own content type. -/
theorem C60_plain_content (v : Ver S) (env : Env S) (method : String) (after : List (ContentUnit S))
    (cu : ContentUnit S) (s s' : ReqState S) (h : setupResponse v env method (cu :: after) s = (s', .ok))
    (hafter : ∀ u ∈ after, placeOf u ≠ placeOf cu) (hm : ¬ MethodIs method "head") (ct : String)
    (hkeep : KeepsRespContent cu ct) :
    (HasRawTag cu ct → v.rawReplaces = true →
      ∃ mt, PlainMedia v "" mt ∧ respContent s'.op (placeOf cu) ct = some mt) ∧
    ((∀ value, RespondsJSON env method cu value → jsonContentType cu.cut ≠ ct) →
      (v.rawReplaces = false ∨ ¬ HasRawTag cu ct →
        ∀ mt, respContent s.op (placeOf cu) ct = some mt → respContent s'.op (placeOf cu) ct = some mt) ∧
      (respContent s.op (placeOf cu) ct = none → HasRawTag cu ct →
        ∃ mt, PlainMedia v "" mt ∧ respContent s'.op (placeOf cu) ct = some mt) ∧
      (respContent s.op (placeOf cu) ct = none → ¬ HasRawTag cu ct → ct = beforeSemicolon cu.contentType → ct ≠ "" →
        ∃ mt, PlainMedia v cu.format mt ∧ respContent s'.op (placeOf cu) ct = some mt)) := by
  obtain ⟨r, h1, h2, -⟩ := setupResponse_entry h hafter
  have hk := reflectResponse_plain h1 hm ct
  have e : respContent s'.op (placeOf cu) ct = r.resp.content.get? ct := by
    simp only [respContent, h2, Option.bind_some]
    rw [finishResponse_content _ _ _ (normaliseUnit_keeps hkeep)]
  have e0 := oldResponse_content cu s.op ct
  rw [e]
  simp only [e0] at hk
  exact hk

/-! ## The 3.0 reflector -/

namespace V30

mutual
/-- C59: the conversion to 3.0 panics exactly when it meets the zero value. -/
theorem C59_fromJS_iff : (j : JS) → ((∃ sc, fromJS j = some sc) ↔ NoZero j)
  | .zero => by simp [fromJS, NoZero]
  | .bool b => by simp [fromJS, NoZero]
  | .obj flat not allOf oneOf anyOf items _ props addl _ => by
    have h1 := fromJSOpt_iff not
    have h2 := fromJSList_iff allOf
    have h3 := fromJSList_iff oneOf
    have h4 := fromJSList_iff anyOf
    have h5 := fromJSOpt_iff items
    have h6 := fromJSProps_iff props
    have h7 := fromJSAddl_iff addl
    simp only [fromJS, NoZero]
    cases hr : flat.ref with
    | some r => simp; split <;> simp
    | none =>
      simp only [true_imp_iff, ← h1, ← h2, ← h3, ← h4, ← h5, ← h6, ← h7]
      cases fromJSOpt not <;> cases fromJSList oneOf <;> cases fromJSList anyOf <;> cases fromJSList allOf <;>
        cases fromJSAddl addl <;> cases fromJSOpt items <;> cases fromJSProps props <;> simp
theorem fromJSOpt_iff : (j : Option JS) → ((∃ sc, fromJSOpt j = some sc) ↔ NoZeroOpt j)
  | none => by simp [fromJSOpt, NoZeroOpt]
  | some j => by
    have h := C59_fromJS_iff j
    simp only [fromJSOpt, NoZeroOpt, ← h]
    cases fromJS j <;> simp
theorem fromJSAddl_iff : (j : Option JS) → ((∃ sc, fromJSAddl j = some sc) ↔ NoZeroOpt j)
  | none => by simp [fromJSAddl, NoZeroOpt]
  | some .zero => by simp [fromJSAddl, NoZeroOpt, fromJS, NoZero]
  | some (.bool b) => by simp [fromJSAddl, NoZeroOpt, NoZero]
  | some (.obj f a b c d e g i k l) => by
    have h := C59_fromJS_iff (.obj f a b c d e g i k l)
    simp only [fromJSAddl, NoZeroOpt, ← h]
    cases fromJS (.obj f a b c d e g i k l) <;> simp
theorem fromJSList_iff : (js : List JS) → ((∃ sc, fromJSList js = some sc) ↔ NoZeroList js)
  | [] => by simp [fromJSList, NoZeroList]
  | j :: js => by
    have h1 := C59_fromJS_iff j
    have h2 := fromJSList_iff js
    simp only [fromJSList, NoZeroList, ← h1, ← h2]
    cases fromJS j <;> cases fromJSList js <;> simp
theorem fromJSProps_iff : (js : List (String × JS)) → ((∃ sc, fromJSProps js = some sc) ↔ NoZeroProps js)
  | [] => by simp [fromJSProps, NoZeroProps]
  | (n, j) :: js => by
    have h1 := C59_fromJS_iff j
    have h2 := fromJSProps_iff js
    simp only [fromJSProps, NoZeroProps, ← h1, ← h2]
    cases fromJS j <;> cases fromJSProps js <;> simp
end

theorem ver_conv_ok {j : JS} {sc : OS} : ver.conv j = .ok sc ↔ fromJS j = some sc := by
  simp only [ver]; cases fromJS j <;> simp

theorem converts_iff (j : JS) : Converts ver j ↔ NoZero j := by
  simp only [Converts, ver_conv_ok, C59_fromJS_iff]

theorem ver_conv_nopanic (j : JS) : ver.conv j ≠ .panic ↔ NoZero j := by
  rw [← C59_fromJS_iff]; simp only [ver]; cases fromJS j <;> simp

theorem plainString_converts (format : String) : Converts ver (plainString format) := by
  rw [converts_iff]; simp [plainString, NoZero, NoZeroOpt, NoZeroList, NoZeroProps]

/-- The conversion is a reference exactly for a plain reference; no conversion is empty. -/
theorem fromJS_ref {j : JS} {sc : OS} (h : fromJS j = some sc) :
    (IsPlainRef j ∧ ∃ r, sc = .ref r) ∨
      (¬ IsPlainRef j ∧ ∃ f not allOf oneOf anyOf items props b addl,
        sc = .schema f not allOf oneOf anyOf items props b addl) := by
  cases j with
  | zero => simp [fromJS] at h
  | bool b =>
    refine .inr ⟨nofun, ?_⟩
    simp only [fromJS, Option.some.injEq] at h
    subst h
    cases b
    · exact ⟨_, _, _, _, _, _, _, _, _, rfl⟩
    · exact ⟨_, _, _, _, _, _, _, _, _, rfl⟩
  | obj f not allOf oneOf anyOf items ia props addl ps =>
    simp only [fromJS] at h
    cases hr : f.ref with
    | some r =>
      rw [hr] at h
      simp only at h
      split at h
      · rename_i hd
        cases h
        exact .inr ⟨fun hp => hp.2 hd, _, _, _, _, _, _, _, _, _, rfl⟩
      · rename_i hd
        cases h
        exact .inl ⟨⟨by rw [hr]; nofun, hd⟩, r, rfl⟩
    | none =>
      rw [hr] at h
      simp only at h
      refine .inr ⟨fun hp => hp.1 hr, ?_⟩
      revert h
      cases fromJSOpt not <;> cases fromJSList oneOf <;> cases fromJSList anyOf <;> cases fromJSList allOf <;>
        cases fromJSAddl addl <;> cases fromJSOpt items <;> cases fromJSProps props <;> simp
      rintro rfl
      exact ⟨_, _, _, _, _, _, _, _, _, rfl⟩

/-- C59: with the 3.0 reflector nothing panics if the reflection never yields the zero value in schemas of
fields, bodies and definitions, and no header field has a plain reference as its schema. -/
theorem C59_convertible (env : Env OS) (oc : OpCtx OS) (hpwt : ∃ b, env.processWithoutTags = .ok b)
    (hreq : ∀ cu ∈ oc.req, (∀ j, ReportedSchema env cu j → NoZero j) ∧ ∀ d, ReportedDefinition env cu d → NoZero d)
    (hresp : ∀ cu ∈ oc.resp, ∀ value, cu.structure_ = some value →
      (∀ js, value.response.result = .ok js → NoZero js) ∧
      (∀ n d, Event.defn n d ∈ value.response.events → NoZero d) ∧
      ∀ c, Event.prop c ∈ (value.headers (cu.fieldMapping "header")).events →
        NoZero c.schema ∧ ¬ IsPlainRef c.schema) :
    Convertible ver env oc := by
  refine ⟨hpwt, fun cu m => ?_, fun cu m => ?_⟩
  · obtain ⟨h1, h2⟩ := hreq cu m
    exact ⟨fun j hj => (ver_conv_nopanic j).mpr (h1 j hj), fun d hd => (converts_iff d).mpr (h2 d hd),
      plainString_converts⟩
  · refine ⟨fun value js hv hr => ?_, fun value c hv hc => ?_, fun value n d hv hd => ?_, plainString_converts⟩
    · exact (ver_conv_nopanic js).mpr ((hresp cu m value hv).1 js hr)
    · obtain ⟨hz, hnr⟩ := (hresp cu m value hv).2.2 c hc
      refine ⟨(ver_conv_nopanic _).mpr hz, fun sc hsc => ?_⟩
      rcases fromJS_ref (ver_conv_ok.mp hsc) with ⟨hp, -⟩ | ⟨-, f, _, _, _, _, _, _, _, _, rfl⟩
      · exact absurd hp hnr
      · simp [ver]
    · exact (converts_iff d).mpr ((hresp cu m value hv).2.1 n d hd)

/-! ### C60: `nullable` and `deprecated` -/

theorem sameButNullable_self (s : OS) : SameButNullable s s := by
  cases s <;> simp [SameButNullable]
  rename_i f _ _ _ _ _ _ _ _
  exact ⟨f.nullable, rfl⟩

theorem paramSchema_spec (isPtr : Bool) (s : OS) :
    SameButNullable s (ver.paramSchema isPtr s) ∧ (isPtr = true → ver.paramSchema isPtr s = s) ∧
    (isPtr = false → ¬ SaysNullable (ver.paramSchema isPtr s)) := by
  cases s with
  | empty => exact ⟨rfl, fun _ => rfl, fun _ => nofun⟩
  | ref r => exact ⟨rfl, fun _ => rfl, fun _ => nofun⟩
  | schema f not allOf oneOf anyOf items props b addl =>
    cases isPtr with
    | true => exact ⟨sameButNullable_self _, fun _ => rfl, nofun⟩
    | false => exact ⟨⟨none, rfl⟩, nofun, fun _ => nofun⟩

theorem respSchema_spec (s : OS) :
    SameButNullable s (ver.respSchema s) ∧ ¬ SaysNullable (ver.respSchema s) := by
  cases s with
  | empty => exact ⟨rfl, nofun⟩
  | ref r => exact ⟨rfl, nofun⟩
  | schema f not allOf oneOf anyOf items props b addl => exact ⟨⟨none, rfl⟩, nofun⟩

theorem pointwise_imp {α β : Type} {R Q : α → β → Prop} {as : List α} {bs : List β} (h : Pointwise R as bs)
    (f : ∀ a b, R a b → Q a b) : Pointwise Q as bs := by
  induction h with
  | nil => exact .nil
  | cons hr _ ih => exact .cons (f _ _ hr) ih

/-- C60: the schema of a 3.0 parameter that is not sent as JSON is, before tags are applied, the converted
schema of its field; it says nullable only for a pointer. -/
theorem C60_parameter_nullable (env : Env OS) (method : String) (cus : List (ContentUnit OS))
    (s s' : ReqState OS) (h : setupRequest ver env method cus s = (s', .ok)) :
    ∃ ps, s'.op.parameters = s.op.parameters ++ (ps.map fun p => { param := some p }) ∧
      Pointwise (fun f p => ¬ JSONEncoded f.2 → ∃ p0 p1 sc sch, fromJS f.2.schema = some sc ∧
        p0.schema = some sch ∧ f.2.populate p0 = .ok p1 ∧ p.schema = p1.schema ∧
        SameButNullable sc sch ∧ (f.2.isPtr = true → sch = sc) ∧ (f.2.isPtr = false → ¬ SaysNullable sch))
      (cus.flatMap (paramFields env)) ps := by
  obtain ⟨ps, hps, e⟩ := C53_parameters_exact ver env method cus s s' h
  refine ⟨ps, e, pointwise_imp hps ?_⟩
  rintro ⟨inn, c⟩ p ⟨p0, p1, hb, hpop, hpath, hother⟩ hj
  obtain ⟨-, -, -, -, -, -, hn, -⟩ := hb
  obtain ⟨-, sc, hsc, hs⟩ := hn hj
  have hp : p.schema = p1.schema := by
    by_cases hi : inn = "path"
    · rw [hpath hi]
    · rw [hother hi]
  obtain ⟨k1, k2, k3⟩ := paramSchema_spec c.isPtr sc
  exact ⟨p0, p1, sc, _, ver_conv_ok.mp hsc, hs, hpop, hp, k1, k2, k3⟩

/-- C60: the schema of a 3.0 JSON response is the converted schema, which does not say nullable. -/
theorem C60_response_nullable (env : Env OS) (method : String) (after : List (ContentUnit OS))
    (cu : ContentUnit OS) (s s' : ReqState OS) (h : setupResponse ver env method (cu :: after) s = (s', .ok))
    (hafter : ∀ u ∈ after, placeOf u ≠ placeOf cu) (value : Value OS) (hj : RespondsJSON env method cu value)
    (hkeep : KeepsRespContent cu (jsonContentType cu.cut)) :
    ∃ js sc mt sch, value.response.result = .ok js ∧ fromJS js = some sc ∧
      respContent s'.op (placeOf cu) (jsonContentType cu.cut) = some mt ∧ mt.schema = some sch ∧
      SameButNullable sc sch ∧ ¬ SaysNullable sch := by
  obtain ⟨js, sc, mt, h1, h2, h3, h4⟩ := C55_json_response ver env method after cu s s' h hafter value hj _ rfl hkeep
    nofun
  obtain ⟨k1, k2⟩ := respSchema_spec sc
  exact ⟨js, sc, mt, _, h1, ver_conv_ok.mp h2, h3, h4, k1, k2⟩

theorem fromJS_deprecated {j : JS} {sc : OS} (h : fromJS j = some sc) (dep : Option Bool)
    (hd : ver.headerDeprecated j sc = some dep) :
    (∀ r, j.ref? = some r → dep = none) ∧ (j.ref? = none → dep = j.deprecated?) := by
  cases j with
  | zero => simp [fromJS] at h
  | bool b =>
    simp only [fromJS, Option.some.injEq] at h
    subst h
    refine ⟨nofun, fun _ => ?_⟩
    cases b <;> (cases hd; rfl)
  | obj f not allOf oneOf anyOf items ia props addl ps =>
    simp only [fromJS] at h
    cases hr : f.ref with
    | some r =>
      rw [hr] at h
      simp only at h
      refine ⟨fun _ _ => ?_, fun he => by simp [JS.ref?, hr] at he⟩
      split at h
      · cases h; cases hd; rfl
      · cases h; cases hd
    | none =>
      rw [hr] at h
      simp only at h
      refine ⟨fun r he => by simp [JS.ref?, hr] at he, fun _ => ?_⟩
      revert h
      cases fromJSOpt not <;> cases fromJSList oneOf <;> cases fromJSList anyOf <;> cases fromJSList allOf <;>
        cases fromJSAddl addl <;> cases fromJSOpt items <;> cases fromJSProps props <;> simp
      rintro rfl
      simp only [ver, Option.some.injEq] at hd
      subst hd
      rfl

/-- C60: a 3.0 response header is, before tags are applied, deprecated as the schema of its field is, which is
not a plain reference. A header whose schema is a deprecated reference is not deprecated. -/
theorem C60_header_deprecated (env : Env OS) (method : String) (after : List (ContentUnit OS))
    (cu : ContentUnit OS) (s s' : ReqState OS) (h : setupResponse ver env method (cu :: after) s = (s', .ok))
    (hafter : ∀ u ∈ after, placeOf u ≠ placeOf cu) (hc : cu.customize = none) (value : Value OS)
    (hv : cu.structure_ = some value) :
    ∃ resp, responseIn s'.op (placeOf cu) = some { response := some resp } ∧
      ∀ k e, resp.headers.get? k = some e → ∃ c ∈ topFields (value.headers (cu.fieldMapping "header")).events,
        c.name = k ∧ ∃ hd0 hd sc, e = { header := some hd } ∧ c.populateHeader hd0 = .ok hd ∧
          fromJS c.schema = some sc ∧ hd0.schema = some sc ∧ ¬ IsPlainRef c.schema ∧
          (c.schema.ref? = none → hd0.deprecated = c.schema.deprecated?) ∧
          (∀ r, c.schema.ref? = some r → hd0.deprecated = none) := by
  obtain ⟨resp, h1, -, h2⟩ := C56_headers ver env method after cu s s' h hafter hc value hv
  refine ⟨resp, h1, fun k e hk => ?_⟩
  obtain ⟨c, hm, hn, hd, he, sc, dep, hconv, hdep, hpop⟩ := h2 k e hk
  have hf := ver_conv_ok.mp hconv
  obtain ⟨d1, d2⟩ := fromJS_deprecated hf dep hdep
  refine ⟨c, hm, hn, _, hd, sc, he, hpop, hf, rfl, ?_, d2, d1⟩
  rcases fromJS_ref hf with ⟨-, r, rfl⟩ | ⟨hn, -⟩
  · cases hdep
  · exact hn

end V30

/-! ## The 3.1 reflector -/

namespace V31

/-- C59: with the 3.1 reflector nothing panics if jsonschema-go can turn definitions and plain strings into
JSON objects. Schemas of fields and bodies may fail: that is an error, not a panic. -/
theorem C59_convertible (tsm : JS → Except String S) (env : Env S) (oc : OpCtx S)
    (hpwt : ∃ b, env.processWithoutTags = .ok b) (hplain : ∀ format, ∃ sc, tsm (plainString format) = .ok sc)
    (hreq : ∀ cu ∈ oc.req, ∀ d, ReportedDefinition env cu d → ∃ sc, tsm d = .ok sc)
    (hresp : ∀ cu ∈ oc.resp, ∀ value n d, cu.structure_ = some value → Event.defn n d ∈ value.response.events →
      ∃ sc, tsm d = .ok sc) :
    Convertible (ver tsm) env oc := by
  have hok : ∀ j sc, tsm j = .ok sc → (ver tsm).conv j = .ok sc := fun j sc h => by simp [ver, h]
  have hne : ∀ j, (ver tsm).conv j ≠ .panic := fun j => by simp only [ver]; cases tsm j <;> nofun
  have hp : ∀ format, Converts (ver tsm) (plainString format) := fun format =>
    let ⟨sc, h⟩ := hplain format; ⟨sc, hok _ _ h⟩
  refine ⟨hpwt, fun cu m => ⟨fun j _ => hne j, fun d hd => ?_, hp⟩,
    fun cu m => ⟨fun _ js _ _ => hne js, fun _ c _ _ => ⟨hne _, fun sc _ => ?_⟩, fun value n d hv hd => ?_, hp⟩⟩
  · obtain ⟨sc, h⟩ := hreq cu m d hd
    exact ⟨sc, hok _ _ h⟩
  · simp only [ver]; split <;> nofun
  · obtain ⟨sc, h⟩ := hresp cu m value n d hv hd
    exact ⟨sc, hok _ _ h⟩

theorem ver_conv_ok {tsm : JS → Except String S} {j : JS} {sc : S} :
    (ver tsm).conv j = .ok sc ↔ tsm j = .ok sc := by
  simp only [ver]; cases tsm j <;> simp

/-- C60: a 3.1 response header is, before tags are applied, deprecated exactly as the schema of its field is. -/
theorem C60_header_deprecated (tsm : JS → Except String S) (env : Env S) (method : String)
    (after : List (ContentUnit S)) (cu : ContentUnit S) (s s' : ReqState S)
    (h : setupResponse (ver tsm) env method (cu :: after) s = (s', .ok))
    (hafter : ∀ u ∈ after, placeOf u ≠ placeOf cu) (hc : cu.customize = none) (value : Value S)
    (hv : cu.structure_ = some value) :
    ∃ resp, responseIn s'.op (placeOf cu) = some { response := some resp } ∧
      ∀ k e, resp.headers.get? k = some e → ∃ c ∈ topFields (value.headers (cu.fieldMapping "header")).events,
        c.name = k ∧ ∃ hd0 hd sc, e = { header := some hd } ∧ c.populateHeader hd0 = .ok hd ∧
          tsm c.schema = .ok sc ∧ hd0.schema = some sc ∧ hd0.deprecated = c.schema.deprecated? := by
  obtain ⟨resp, h1, -, h2⟩ := C56_headers (ver tsm) env method after cu s s' h hafter hc value hv
  refine ⟨resp, h1, fun k e hk => ?_⟩
  obtain ⟨c, hm, hn, hd, he, sc, dep, hconv, hdep, hpop⟩ := h2 k e hk
  refine ⟨c, hm, hn, _, hd, sc, he, hpop, ver_conv_ok.mp hconv, rfl, ?_⟩
  simp only [ver] at hdep
  generalize c.schema = j at hdep ⊢
  cases j <;> (cases hdep; rfl)

/-- C60: the schemas of 3.1 parameters and JSON responses are the converted ones, unchanged. -/
theorem C60_parameter_schema (tsm : JS → Except String S) (env : Env S) (method : String) (cus : List (ContentUnit S))
    (s s' : ReqState S) (h : setupRequest (ver tsm) env method cus s = (s', .ok)) :
    ∃ ps, s'.op.parameters = s.op.parameters ++ (ps.map fun p => { param := some p }) ∧
      Pointwise (fun f p => ¬ JSONEncoded f.2 → ∃ p0 p1 sc, tsm f.2.schema = .ok sc ∧
        p0.schema = some sc ∧ f.2.populate p0 = .ok p1 ∧ p.schema = p1.schema)
      (cus.flatMap (paramFields env)) ps := by
  obtain ⟨ps, hps, e⟩ := C53_parameters_exact (ver tsm) env method cus s s' h
  refine ⟨ps, e, V30.pointwise_imp hps ?_⟩
  rintro ⟨inn, c⟩ p ⟨p0, p1, hb, hpop, hpath, hother⟩ hj
  obtain ⟨-, -, -, -, -, -, hn, -⟩ := hb
  obtain ⟨-, sc, hsc, hs⟩ := hn hj
  have hp : p.schema = p1.schema := by
    by_cases hi : inn = "path"
    · rw [hpath hi]
    · rw [hother hi]
  exact ⟨p0, p1, sc, ver_conv_ok.mp hsc, hs, hpop, hp⟩

end V31

/-- C60: a content type that a response unit names by a tag and that has a media type already, which the unit's
own JSON response does not use: 3.0 keeps what is there, 3.1 replaces it by a plain string. -/
theorem C60_tag_on_existing (env : Env V30.OS) (env' : Env S) (tsm : JS → Except String S) (method : String)
    (cu : ContentUnit V30.OS) (cu' : ContentUnit S) (s s' : ReqState V30.OS) (t t' : ReqState S)
    (h : setupResponse V30.ver env method [cu] s = (s', .ok))
    (h' : setupResponse (V31.ver tsm) env' method [cu'] t = (t', .ok))
    (hm : ¬ MethodIs method "head") (ct : String) (hkeep : KeepsRespContent cu ct) (hkeep' : KeepsRespContent cu' ct)
    (htag' : HasRawTag cu' ct)
    (hno : ∀ value, RespondsJSON env method cu value → jsonContentType cu.cut ≠ ct)
    (mt : MediaType V30.OS) (hmt : respContent s.op (placeOf cu) ct = some mt) :
    respContent s'.op (placeOf cu) ct = some mt ∧
    ∃ sc, tsm (plainString "") = .ok sc ∧ respContent t'.op (placeOf cu') ct = some { schema := some sc } := by
  have e : V30.ver.rawReplaces = false := rfl
  have e' : (V31.ver tsm).rawReplaces = true := rfl
  have k := (C60_plain_content V30.ver env method [] cu s s' h (by intro u hu; cases hu) hm ct hkeep).2 hno
  refine ⟨k.1 (.inl e) mt hmt, ?_⟩
  obtain ⟨m, ⟨sc, hsc, rfl⟩, hg⟩ :=
    (C60_plain_content (V31.ver tsm) env' method [] cu' t t' h' (by intro u hu; cases hu) hm ct hkeep').1 htag' e'
  exact ⟨sc, V31.ver_conv_ok.mp hsc, hg⟩

/-! ## Concrete cases -/

/-- The example context meets the hypotheses of C58 and C59. -/
theorem exContext_hyps : V30.Made exContext ∧ V31.Made exContext ∧ Convertible exampleVer exampleEnv exContext ∧
    StandardParams exampleEnv exContext := by
  have hs : sanitizeMethodPath "Put" "/things/{id:[0-9]+}" = .ok ⟨"put", "/things/{id}", ["id"]⟩ := by decide +kernel
  have hp : (({} : V31.Spec Unit).pathItem "/things/{id}").operation "put" = .ok none := by decide +kernel
  have conv : ∀ j, Converts exampleVer j := fun j => ⟨(), rfl⟩
  refine ⟨⟨{}, "Put", "/things/{id:[0-9]+}", { method := "put", path := "/things/{id}", pathParams := pathParamsMap ["id"] },
      by simp only [V30.newOperationContext, hs]; rfl, rfl, rfl, by decide +kernel⟩,
    ⟨{}, "Put", "/things/{id:[0-9]+}", { method := "put", path := "/things/{id}", pathParams := pathParamsMap ["id"] },
      by simp only [V31.newOperationContext, hs, hp], rfl, rfl, by decide +kernel⟩, ⟨⟨false, rfl⟩,
      fun cu _ => ⟨fun _ _ => nofun, fun d _ => conv d, fun f => conv _⟩,
      fun cu _ => ⟨fun _ _ _ _ => nofun, fun _ _ _ _ => ⟨nofun, fun _ _ => nofun⟩, fun _ _ d _ _ => conv d, fun f => conv _⟩⟩,
    ?_, ?_⟩
  · intro q hq; simp [exContext, ParamSpec.inlineParams] at hq
  · intro cu hcu inn mapping c hc p q hpq
    simp only [exContext, List.mem_cons, List.not_mem_nil, or_false] at hcu
    rcases hcu with rfl | rfl
    · simp only [ContentUnit.value, exUnit, exValue, Option.getD_some] at hc
      split at hc
      · simp only [List.mem_singleton, Event.prop.injEq] at hc
        subst hc
        cases hpq
        rfl
      · cases hc
    · simp only [ContentUnit.value, exPathUnit, Option.getD_some] at hc
      split at hc
      · simp only [List.mem_singleton, Event.prop.injEq] at hc
        subst hc
        cases hpq
        rfl
      · cases hc

/-- Both sides of C58 hold for it in an empty document, and neither once it was added. -/
example : (∃ pieces, PathSpec.Decomposes "/things/{id}" pieces ∧ Reflectable exampleVer exampleEnv exContext (PathSpec.names pieces)) ∧
    (V30.addOperation exampleVer exampleEnv (V30.addOperation exampleVer exampleEnv {} exContext).1 exContext).2.2 ≠ .ok := by
  obtain ⟨h1, -, h2, h3⟩ := exContext_hyps
  exact ⟨((V30.C58_add_succeeds_iff exampleVer exampleEnv {} exContext h1 h2 h3).mp (by decide +kernel)).2, by decide +kernel⟩

/-- Without the unit of the path parameter nothing is reflectable for that path. -/
example : (V30.addOperation exampleVer exampleEnv {} { exContext with req := [exUnit] }).2.2 ≠ .ok := by decide +kernel

namespace V30

/-- An environment for the examples with 3.0 schemas. -/
def exEnv30 : Env OS := ⟨{}, .ok false, id, fun _ => .ok "{\"type\":\"string\"}"⟩

/-- A nullable string. -/
def exNullable : JS := .obj { type := some (.many ["string", "null"]), deprecated := some true } none [] [] [] none [] [] none []

/-- A field whose schema is a nullable string. -/
def exField30 (isPtr : Bool) : PropCall OS :=
  { processed := true, pathLen := 1, name := "q", schema := exNullable, isPtr := isPtr }

/-- A value with one field in query and headers, and a nullable response. -/
def exValue30 (isPtr : Bool) : Value OS where
  plain := .ok (.bool true)
  params inn _ := ⟨if inn = "query" then [.prop (exField30 isPtr)] else [], .ok (.bool true)⟩
  response := ⟨[], .ok exNullable⟩
  headers _ := ⟨[.prop (exField30 isPtr)], .ok (.bool true)⟩

/-- Its conversion. -/
def exConverted (nullable : Option Bool) : OS :=
  .schema { type := some "string", nullable := nullable, deprecated := some true } none [] [] [] none [] none none

/-- The unit of the examples. -/
def exUnit30 (isPtr : Bool) : ContentUnit OS := { structure_ := some (exValue30 isPtr) }

/-- Its parameter. -/
def exParam30 (isPtr : Bool) : Parameter OS where
  name := "q"
  inn := "query"
  schema := some (exConverted (if isPtr then some true else none))

/-- The unit with two tags. -/
def exTagged30 : ContentUnit OS := { structure_ := some { exValue30 true with contentTypes := ["application/json", "text/csv"] } }

/-- Its header. -/
def exHeader30 : Header OS where
  deprecated := some true
  schema := some (exConverted (some true))

/-- C60, concrete: the parameter is nullable exactly if the field is a pointer. -/
example (isPtr : Bool) : ∃ s', setupRequest ver exEnv30 "get" [exUnit30 isPtr] ⟨[], {}⟩ = (s', .ok) ∧
    s'.op.parameters = [{ param := some (exParam30 isPtr) }] := by
  cases isPtr
  · exact ⟨_, rfl, rfl⟩
  · exact ⟨_, rfl, rfl⟩

/-- C60, concrete: the response is not nullable, the header is and is deprecated; a tag keeps what is there. -/
example : ∃ s', setupResponse ver exEnv30 "get" [exTagged30] ⟨[], {}⟩ = (s', .ok) ∧
    respContent s'.op (some "200") "application/json" = some { schema := some (exConverted none) } ∧
    (respContent s'.op (some "200") "text/csv").isSome ∧
    ((responseIn s'.op (some "200")).bind (·.response)).map (·.headers) = some [("q", { header := some exHeader30 })] :=
  ⟨_, rfl, by with_unfolding_all rfl, by decide +kernel, by with_unfolding_all rfl⟩

/-- C59, concrete: a context with these units is convertible. -/
theorem exUnit30_convertible (isPtr : Bool) : Convertible ver exEnv30
    { method := "get", path := "/", pathParams := [], req := [exUnit30 isPtr], resp := [exUnit30 isPtr] } := by
  have hz : NoZero exNullable := by simp [exNullable, NoZero, NoZeroOpt, NoZeroList, NoZeroProps]
  have hev : ∀ inn mapping e, e ∈ ((exValue30 isPtr).params inn mapping).events → e = .prop (exField30 isPtr) := by
    intro inn mapping e he
    simp only [exValue30] at he
    split at he
    · simpa using he
    · cases he
  refine C59_convertible _ _ ⟨false, rfl⟩ ?_ ?_
  · intro cu hcu
    simp only [List.mem_singleton] at hcu
    subst hcu
    refine ⟨fun j hj => ?_, fun d hd => ?_⟩
    · cases hj with
      | form h => cases h
      | formDef h => cases h
      | json h => cases h
      | jsonDef h => cases h
      | field i h => cases hev _ _ _ h; exact hz
      | content i h r => cases hev _ _ _ h; cases r
    · cases hd with
      | param i h => cases hev _ _ _ h
      | nested i h m => cases hev _ _ _ h; cases m
  · intro cu hcu value hv
    simp only [List.mem_singleton] at hcu
    subst hcu
    cases hv
    refine ⟨fun js h => by cases h; exact hz, fun n d h => (by cases h), fun c h => ?_⟩
    simp only [exValue30, List.mem_singleton, Event.prop.injEq] at h
    subst h
    exact ⟨hz, fun h => h.1 rfl⟩

/-- A field with a reference as its schema. -/
def exRefField : PropCall OS where
  processed := true
  pathLen := 1
  name := "X"
  schema := .obj { ref := some "#/components/schemas/X" } none [] [] [] none [] [] none []

/-- A response whose header has a reference as its schema. -/
def exRefHeader : ContentUnit OS where
  structure_ := some { headers := fun _ => ⟨[.prop exRefField], .ok (.bool true)⟩ }

/-- C59, the limit: a header whose schema is a plain reference makes `AddOperation` panic. -/
theorem C59_reference_header_panics :
    (addOperation ver exEnv30 {} { method := "get", path := "/", pathParams := [], resp := [exRefHeader] }).2.2 = .panic := by
  decide +kernel

end V30

end Verif
