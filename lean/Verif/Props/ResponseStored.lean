import Verif.Props.Response
import Verif.Props.Stored

/-!
# What a successful reflection of response units stores (C23, C54, C55, C56)
-/

namespace Verif
variable {S : Type}

theorem setupResponse_names {v : Ver S} {env : Env S} {method : String} {cus : List (ContentUnit S)} (s : ReqState S) :
    NamesKept s.schemas (setupResponse v env method cus s).1.schemas := by
  refine Star.lift (Q := fun a b : ReqState S => NamesKept a.schemas b.schemas)
    (fun a => .refl _) (fun a b c h h' => h.trans h') ?_ (setupResponse_within v env method cus s)
  have key : ∀ {cu : ContentUnit S} {r r' : RespState S} {out : Out}, reflectResponse v env method cu r = (r', out) →
      NamesKept r.schemas r'.schemas := by
    intro cu r r' out h
    have := reflectResponse_within v env cu method r
    rw [h] at this
    refine Star.lift (Q := fun a b : RespState S => NamesKept a.schemas b.schemas)
      (fun a => .refl _) (fun a b c h h' => h.trans h') ?_ this
    intro a b h
    cases h with
    | newDef => exact namesKept_set _ _ _
    | _ => exact .refl _
  intro a b h
  cases h with
  | stored _ refl => exact key refl
  | edited _ refl => exact key refl
  | kept _ refl => exact key refl
  | created _ refl => exact key refl
  | absent _ refl => exact key refl

/-- Responses change no component schema, they only add some. -/
theorem setupResponse_schemas (v : Ver S) (env : Env S) (method : String) (cus : List (ContentUnit S)) (s : ReqState S)
    (n : String) (sc : S) (hn : s.schemas.get? n = some sc) :
    (setupResponse v env method cus s).1.schemas.get? n = some sc := by
  have fresh : ∀ {m : GoMap S} {k : String} {x : S}, m.get? k = none → m.get? n = some sc → (m.set k x).get? n = some sc := by
    intro m k x h1 h2
    rw [GoMap.get?_set]
    split
    · rename_i e; rw [e, h1] at h2; cases h2
    · exact h2
  refine Star.inv (P := fun a : ReqState S => a.schemas.get? n = some sc) ?_
    (setupResponse_within v env method cus s) hn
  have key : ∀ {cu : ContentUnit S} {r r' : RespState S} {out : Out}, reflectResponse v env method cu r = (r', out) →
      r.schemas.get? n = some sc → r'.schemas.get? n = some sc := by
    intro cu r r' out h h0
    have := reflectResponse_within v env cu method r
    rw [h] at this
    refine Star.inv (P := fun a : RespState S => a.schemas.get? n = some sc) ?_ this h0
    intro a b h ha
    cases h with
    | newDef hf => exact fresh hf ha
    | _ => exact ha
  intro a b h ha
  cases h with
  | stored _ refl => exact key refl ha
  | edited _ refl => exact key refl ha
  | kept _ refl => exact key refl ha
  | created _ refl => exact key refl ha
  | absent _ refl => exact key refl ha

/-- The entry that the last unit for a place leaves there. -/
theorem setupResponse_entry {v : Ver S} {env : Env S} {method : String} {after : List (ContentUnit S)}
    {cu : ContentUnit S} {s s' : ReqState S} (h : setupResponse v env method (cu :: after) s = (s', .ok))
    (hafter : ∀ u ∈ after, placeOf u ≠ placeOf cu) :
    ∃ r, reflectResponse v env method (normaliseUnit cu) ⟨s.schemas, oldResponse cu s.op⟩ = (r, .ok) ∧
      responseIn s'.op (placeOf cu) = some (finishResponse (normaliseUnit cu) r.resp) ∧
      NamesKept r.schemas s'.schemas := by
  obtain ⟨r, h3, h4⟩ := setupResponse_cons_ok h
  refine ⟨r, h3, ?_, ?_⟩
  · have := C18_other_places v env method after
      ⟨r.schemas, setRespSlot (normaliseUnit cu) (finishResponse (normaliseUnit cu) r.resp) s.op⟩ (placeOf cu) hafter
    rw [h4] at this
    rw [this, responseIn_set, if_pos rfl]
  · have := setupResponse_names (v := v) (env := env) (method := method) (cus := after)
      ⟨r.schemas, setRespSlot (normaliseUnit cu) (finishResponse (normaliseUnit cu) r.resp) s.op⟩
    rw [h4] at this
    exact this

/-! ## C23: descriptions -/

/-- The status whose text is the last choice for the description. -/
def describedStatus (cu : ContentUnit S) : Int := if cu.isDefault = true then cu.httpStatus else effectiveStatus cu

/-- The text for a status is the standard one. -/
theorem statusText_standard (n : Int) : statusText n = HttpSpec.standardText n := by
  unfold HttpSpec.standardText
  split
  all_goals first | rfl | skip
  have key : ∀ l : List (Int × String), (∀ p ∈ l, n ≠ p.1) → l.lookup n = none := by
    intro l h
    rw [List.lookup_eq_none_iff]
    intro p hp
    simpa using h p hp
  rw [statusText, key _ _]
  · rfl
  · simp only [statusTexts, List.forall_mem_cons]
    refine ⟨?_, ?_, ?_, ?_, ?_, ?_, ?_, ?_, ?_, ?_, ?_, ?_, ?_, ?_, ?_, ?_, ?_, ?_, ?_, ?_, ?_, ?_, ?_, ?_, ?_, ?_, ?_, ?_, ?_, ?_, ?_, ?_, ?_, ?_, ?_, ?_, ?_, ?_, ?_, ?_, ?_, ?_, ?_, ?_, ?_, ?_, ?_, ?_, ?_, ?_, ?_, ?_, ?_, ?_, ?_, ?_, ?_, ?_, ?_, ?_, ?_, ?_, by simp⟩ <;> assumption

/-- C23: the description of a response without customisation is the first text that is not empty of: the
description of the unit, the description that was there, the description in the schema of the JSON body,
the one in the schema of the headers, the standard text of the status. -/
theorem C23_response_description (v : Ver S) (env : Env S) (method : String) (after : List (ContentUnit S))
    (cu : ContentUnit S) (s s' : ReqState S) (h : setupResponse v env method (cu :: after) s = (s', .ok))
    (hafter : ∀ u ∈ after, placeOf u ≠ placeOf cu) (hc : cu.customize = none) (old : Response S)
    (hold : old = ((responseIn s.op (placeOf cu)).bind (·.response)).getD {}) :
    ∃ resp dj dh, responseIn s'.op (placeOf cu) = some { response := some resp } ∧
      JSONDescription env method cu dj ∧ HeaderDescription cu dh ∧
      resp.description = firstNonEmpty [cu.description, old.description, dj, dh,
        HttpSpec.standardText (describedStatus cu)] := by
  rw [← statusText_standard]
  obtain ⟨r, h1, h2, -⟩ := setupResponse_entry h hafter
  obtain ⟨⟨dj, dh, hj, hh, hd⟩, -⟩ := reflectResponse_ok h1
  have hold : oldResponse cu s.op = old := hold.symm
  simp only [hold] at hd
  have hst : (normaliseUnit cu).httpStatus = describedStatus cu := by
    unfold describedStatus
    cases hdf : cu.isDefault
    · simp only [Bool.false_eq_true, if_false]; exact normaliseUnit_status cu hdf
    · simp [normaliseUnit, hdf]
  simp only [finishResponse, hst] at h2
  rw [show (normaliseUnit cu).customize = none from hc] at h2
  refine ⟨_, dj, dh, h2, hj, hh, ?_⟩
  have hd1 : (normaliseUnit cu).description = cu.description := rfl
  rw [hd1]
  simp only [firstNonEmpty] at hd ⊢
  by_cases hcd : cu.description = ""
  · by_cases h1 : old.description = "" <;> by_cases h2 : dj = "" <;> by_cases h3 : dh = "" <;>
      by_cases h4 : statusText (describedStatus cu) = "" <;> simp_all
  · simp [hcd]

/-- C23: a response of a known status always has a description, unless a customisation removes it. -/
theorem C23_described (v : Ver S) (env : Env S) (method : String) (after : List (ContentUnit S))
    (cu : ContentUnit S) (s s' : ReqState S) (h : setupResponse v env method (cu :: after) s = (s', .ok))
    (hafter : ∀ u ∈ after, placeOf u ≠ placeOf cu) (hc : cu.customize = none)
    (hst : HttpSpec.standardText (describedStatus cu) ≠ "") :
    ∃ resp, responseIn s'.op (placeOf cu) = some { response := some resp } ∧ resp.description ≠ "" := by
  obtain ⟨resp, dj, dh, h1, -, -, h2⟩ := C23_response_description v env method after cu s s' h hafter hc _ rfl
  refine ⟨resp, h1, ?_⟩
  rw [h2]
  simp only [firstNonEmpty]
  intro hcon
  repeat' split at hcon
  all_goals simp_all

/-- C23: the customisation of a response unit runs last: what is stored is what it makes of the response
that is stored without it. -/
theorem C23_response_customize (v : Ver S) (env : Env S) (method : String) (after : List (ContentUnit S))
    (cu : ContentUnit S) (s s' : ReqState S) (h : setupResponse v env method (cu :: after) s = (s', .ok))
    (hafter : ∀ u ∈ after, placeOf u ≠ placeOf cu) (f : Customize S) (hc : cu.customize = some f) :
    ∃ resp s0, setupResponse v env method [{ cu with customize := none }] s = (s0, .ok) ∧
      responseIn s0.op (placeOf cu) = some { response := some resp } ∧
      responseIn s'.op (placeOf cu) = some (f.resp { response := some resp }) := by
  obtain ⟨r, h1, h2, -⟩ := setupResponse_entry h hafter
  have hr : reflectResponse v env method (normaliseUnit { cu with customize := none })
      ⟨s.schemas, oldResponse cu s.op⟩ = (r, .ok) := h1
  simp only [finishResponse] at h2
  rw [show (normaliseUnit cu).customize = some f from hc] at h2
  have hs : ∃ s0, setupResponse v env method [{ cu with customize := none }] s = (s0, .ok) := by
    simp only [setupResponse, respSlot_eq]
    rw [show placeOf { cu with customize := none } = placeOf cu from rfl, hr]
    exact ⟨_, rfl⟩
  obtain ⟨s0, hs⟩ := hs
  refine ⟨_, s0, hs, ?_, h2⟩
  obtain ⟨r', h1', h2', -⟩ := setupResponse_entry hs (by simp)
  have e : r' = r := by
    have : (r', Out.ok) = (r, Out.ok) := h1'.symm.trans hr
    cases this; rfl
  subst e
  exact h2'

/-- C23: the description of a unit is the description of an inline request body, until another unit
brings one. -/
theorem C23_request_description (v : Ver S) (env : Env S) (method : String) (before after : List (ContentUnit S))
    (cu : ContentUnit S) (s s' : ReqState S) (h : setupRequest v env method (before ++ cu :: after) s = (s', .ok))
    (hd : cu.description ≠ "") (hc : ∀ u ∈ cu :: after, u.customize = none) (hafter : ∀ u ∈ after, u.description = "")
    (body : RequestBody S) (hb : (s'.op.requestBody.bind (·.body)) = some body) (hthere : WantsBody env cu method) :
    body.description = some cu.description := by
  obtain ⟨s1, -, h2⟩ := setupRequest_append_ok h
  obtain ⟨s2, h3, h4⟩ := setupRequest_cons_ok h2
  have hsome := (body_isSome h3).mpr (.inr hthere)
  -- the body of the unit is inline
  have hinline : (s2.op.requestBody.bind (·.body)).isSome := by
    have hset : ∀ (mime : String) (mt : MediaType S) (op : Operation S),
        ((setRequestContent mime mt op).requestBody.bind (·.body)).isSome := by intro mime mt op; rfl
    by_cases hk : ReflectsParams cu
    · obtain ⟨a1, a2, a3, hf, hp, hj, hr⟩ := reflectUnit_ok hk h3
      have hpb : a2.op.requestBody = a1.op.requestBody := by
        have := paramsStep_op (v := v) (env := env) (cu := cu) a1
        rw [hp] at this; exact this
      have hraw : ∀ (cts : List String) (x y : ReqState S),
          foldActs (fun tag => stringRequestBody v tag "") cts x = (y, .ok) →
          ((x.op.requestBody.bind (·.body)).isSome ∨ cts ≠ []) → (y.op.requestBody.bind (·.body)).isSome := by
        intro cts
        induction cts with
        | nil =>
          intro x y hxy hor
          cases hxy
          rcases hor with hor | hor
          · exact hor
          · exact absurd rfl hor
        | cons ct cts ih =>
          intro x y hxy _
          obtain ⟨z, hz, hzy⟩ := foldActs_cons_ok hxy
          refine ih z y hzy (.inl ?_)
          simp only [stringRequestBody] at hz
          split at hz
          · cases hz; exact hset _ _ _
          · cases hz
      have hbody : ∀ {mime tag : String} {mapping : GoMap String} {tags : List String} {x y : ReqState S},
          parseRequestBody v env cu method mime mapping tag tags x = (y, .ok) →
          ((x.op.requestBody.bind (·.body)).isSome ∨ reflectRequestBody env cu method mapping tag tags ≠ .ok none) →
          (y.op.requestBody.bind (·.body)).isSome := by
        intro mime tag mapping tags x y hxy hor
        rcases parseRequestBody_ok hxy with ⟨hn, rfl⟩ | ⟨_, _, _, _, _, _, _, _, _, ho⟩
        · rcases hor with hor | hor
          · exact hor
          · exact absurd hn hor
        · rw [ho]; exact hset _ _ _
      have fin : ((a3.op.requestBody.bind (·.body)).isSome ∨ ∃ mime, RawMime cu mime) →
          (s2.op.requestBody.bind (·.body)).isSome := by
        intro hor
        split at hr
        · rename_i hct
          simp only [parseRawRequestBody] at hr
          split at hr
          · rename_i hnone
            cases hr
            rcases hor with hor | ⟨mime, hm | hm⟩
            · exact hor
            · obtain ⟨-, value, hv, -⟩ := hm; rw [hnone] at hv; cases hv
            · exact absurd hk hm.1
          · rename_i value hv
            refine hraw _ _ _ hr (hor.imp id ?_)
            rintro ⟨mime, hm | hm⟩
            · obtain ⟨-, value', hv', hm⟩ := hm
              rw [hv] at hv'; cases hv'
              intro he; rw [he] at hm; cases hm
            · exact absurd hk hm.1
        · rename_i hct
          rw [hr]
          rcases hor with hor | ⟨mime, hm | hm⟩
          · exact hor
          · exact absurd hm.1 hct
          · exact absurd hk hm.1
      have mid : ((a1.op.requestBody.bind (·.body)).isSome ∨ (TakesJSON cu ∧ WantsJSONBody env cu method)) →
          (a3.op.requestBody.bind (·.body)).isSome := by
        intro hor
        split at hj
        · refine hbody hj ?_
          rw [hpb]
          exact hor.imp id fun hw hn => json_none hn hw.2
        · rename_i hct
          rw [hj, hpb]
          rcases hor with hor | hor
          · exact hor
          · exact absurd (takesJSON_iff.mp hor.1) hct
      rcases hthere with hw | hw | hw
      · refine fin (.inl (mid (.inl ?_)))
        rw [takesForm_iff hk] at hw
        rw [if_neg hw.1] at hf
        exact hbody hf (.inr fun hn => form_none hn hw.2)
      · exact fin (.inl (mid (.inr hw)))
      · exact fin (.inr hw)
    · simp only [ReflectsParams, List.mem_cons, List.not_mem_nil, or_false, not_or] at hk
      simp only [reflectUnit, if_neg hk.1, if_neg hk.2.1] at h3
      rw [if_neg (by simp [hk.2.2.1, hk.2.2.2])] at h3
      simp only [stringRequestBody] at h3
      split at h3
      · cases h3; exact hset _ _ _
      · cases h3
  -- it gets the description
  have hfin : ∃ b ref, (finishRequest cu s2.op).requestBody = some { body := some b, ref } ∧
      b.description = some cu.description := by
    have hcc := hc cu (by simp)
    cases hrb : s2.op.requestBody with
    | none => rw [hrb] at hinline; cases hinline
    | some rb =>
      rw [hrb] at hinline
      obtain ⟨b, ref⟩ := rb
      cases b with
      | none => cases hinline
      | some b =>
        simp only [finishRequest, hrb, if_pos hd, hcc]
        exact ⟨_, _, rfl, rfl⟩
  -- later units do not change it
  obtain ⟨b, ref, hb1, hb2⟩ := hfin
  have inv : ∃ b ref, s'.op.requestBody = some { body := some b, ref } ∧ b.description = some cu.description := by
    have hw := setupRequest_within v env method after { s2 with op := finishRequest cu s2.op }
    rw [h4] at hw
    refine Star.inv (P := fun a : ReqState S => ∃ b ref, a.op.requestBody = some { body := some b, ref } ∧
      b.description = some cu.description) ?_ hw ⟨b, ref, hb1, hb2⟩
    rintro x y hs ⟨b, ref, e1, e2⟩
    have hset : ∀ (mime : String) (mt : MediaType S), ∃ b ref,
        (setRequestContent mime mt x.op).requestBody = some { body := some b, ref } ∧ b.description = some cu.description := by
      intro mime mt
      simp only [setRequestContent, e1]
      exact ⟨_, ref, rfl, e2⟩
    cases hs with
    | reflect mem hstep =>
      cases hstep with
      | body => exact hset _ _
      | raw => exact hset _ _
      | _ => exact ⟨b, ref, e1, e2⟩
    | @finish u mem =>
      refine ⟨b, ref, ?_, e2⟩
      have h0 := hafter u mem
      have h1 := hc u (by simp [mem])
      simp only [finishRequest, e1, h0, h1]
      simp [e1]
  obtain ⟨b', ref', e1, e2⟩ := inv
  rw [e1] at hb
  cases hb
  exact e2

/-! ## C55: JSON responses and other content types -/

theorem takeWhile_split (l : List Char) : ∀ t, l.takeWhile (· ≠ ';') = t ↔ ';' ∉ t ∧ (l = t ∨ ∃ r, l = t ++ ';' :: r) := by
  induction l with
  | nil =>
    intro t
    cases t with
    | nil => simp
    | cons c t => simp
  | cons c l ih =>
    intro t
    by_cases hc : c = ';'
    · subst hc
      cases t with
      | nil => simp
      | cons d t =>
        simp only [List.takeWhile_cons, ne_eq, not_true_eq_false, decide_false, Bool.false_eq_true, if_false,
          reduceCtorEq, List.mem_cons, not_or, List.cons.injEq, List.cons_append, false_iff, not_and, not_exists, and_imp]
        intro h1 _
        exact ⟨fun e => absurd e h1, fun _ e => absurd e h1⟩
    · simp only [List.takeWhile_cons, ne_eq, hc, not_false_eq_true, decide_true, if_true]
      cases t with
      | nil => simp [hc]
      | cons d t =>
        have := ih t
        simp only [List.cons.injEq, List.mem_cons, not_or, List.cons_append]
        constructor
        · rintro ⟨rfl, h⟩
          obtain ⟨h1, h2⟩ := this.1 h
          refine ⟨⟨fun e => hc e.symm, h1⟩, h2.imp (fun e => ⟨rfl, e⟩) (fun ⟨r, e⟩ => ⟨r, rfl, e⟩)⟩
        · rintro ⟨⟨_, h1⟩, ⟨rfl, h2⟩ | ⟨r, rfl, h2⟩⟩
          · exact ⟨rfl, this.2 ⟨h1, .inl h2⟩⟩
          · exact ⟨rfl, this.2 ⟨h1, .inr ⟨r, h2⟩⟩⟩

/-- C55: what is cut off a content type is its parameters, from the first semicolon on. -/
theorem C55_media_type (contentType t : String) : beforeSemicolon contentType = t ↔ MediaTypeOf contentType t := by
  have h := takeWhile_split contentType.toList t.toList
  unfold beforeSemicolon MediaTypeOf
  constructor
  · intro e
    obtain ⟨h1, h2⟩ := h.1 (by rw [← e, String.toList_ofList])
    refine ⟨h1, h2.imp String.toList_inj.1 ?_⟩
    rintro ⟨r, hr⟩
    refine ⟨String.ofList r, String.toList_inj.1 ?_⟩
    rw [hr]
    simp [String.toList_append]
  · rintro ⟨h1, h2⟩
    have : contentType.toList.takeWhile (· ≠ ';') = t.toList := h.2 ⟨h1, h2.imp (fun e => by rw [e]) (by
      rintro ⟨r, rfl⟩
      exact ⟨r.toList, by simp [String.toList_append]⟩)⟩
    rw [this, String.ofList_toList]

/-- C55: the JSON response of a unit is stored in the place of its status, under its content type (JSON by
default; parameters from the semicolon on are cut off), with the converted schema. -/
theorem C55_json_response (v : Ver S) (env : Env S) (method : String) (after : List (ContentUnit S))
    (cu : ContentUnit S) (s s' : ReqState S) (h : setupResponse v env method (cu :: after) s = (s', .ok))
    (hafter : ∀ u ∈ after, placeOf u ≠ placeOf cu) (value : Value S) (hj : RespondsJSON env method cu value)
    (ct : String) (hct : ct = jsonContentType { cu with contentType := beforeSemicolon cu.contentType })
    (hkeep : KeepsRespContent cu ct) (hraw : v.rawReplaces = true → ¬ HasRawTag cu ct) :
    ∃ js sc mt, value.response.result = .ok js ∧ v.conv js = .ok sc ∧
      respContent s'.op (placeOf cu) ct = some mt ∧ mt.schema = some (v.respSchema sc) := by
  obtain ⟨r, h1, h2, -⟩ := setupResponse_entry h hafter
  obtain ⟨-, -, -, hjson, -⟩ := reflectResponse_ok h1
  subst hct
  obtain ⟨js, sc, e1, e2, e3, -⟩ := hjson value hj
  obtain ⟨mt, e4, e5⟩ := e3 hraw
  refine ⟨js, sc, mt, e1, e2, ?_, e5⟩
  simp only [respContent, h2, Option.bind_some]
  rw [finishResponse_content _ _ _ (normaliseUnit_keeps hkeep)]
  exact e4

/-- C55: the content types that a unit names, by tags or by itself, are content types of its response,
except for HEAD. -/
theorem C55_named_content_types (v : Ver S) (env : Env S) (method : String) (after : List (ContentUnit S))
    (cu : ContentUnit S) (s s' : ReqState S) (h : setupResponse v env method (cu :: after) s = (s', .ok))
    (hafter : ∀ u ∈ after, placeOf u ≠ placeOf cu) (hm : ¬ MethodIs method "head")
    (ct : String) (hct : HasRawTag cu ct ∨ (ct = beforeSemicolon cu.contentType ∧ ct ≠ "")) (hkeep : KeepsRespContent cu ct) :
    (respContent s'.op (placeOf cu) ct).isSome := by
  obtain ⟨r, h1, h2, -⟩ := setupResponse_entry h hafter
  obtain ⟨-, -, -, -, hraw⟩ := reflectResponse_ok h1
  simp only [respContent, h2, Option.bind_some]
  rw [finishResponse_content _ _ _ (normaliseUnit_keeps hkeep)]
  exact hraw hm ct hct

/-! ## C56: headers -/

/-- C56: the headers of the response of a unit with a structure and without customisation are exactly
those of the top-level fields of the structure. -/
theorem C56_headers (v : Ver S) (env : Env S) (method : String) (after : List (ContentUnit S))
    (cu : ContentUnit S) (s s' : ReqState S) (h : setupResponse v env method (cu :: after) s = (s', .ok))
    (hafter : ∀ u ∈ after, placeOf u ≠ placeOf cu) (hc : cu.customize = none) (value : Value S)
    (hv : cu.structure_ = some value) :
    ∃ resp, responseIn s'.op (placeOf cu) = some { response := some resp } ∧
      (∀ c ∈ topFields (value.headers (cu.fieldMapping "header")).events, (resp.headers.get? c.name).isSome) ∧
      (∀ k e, resp.headers.get? k = some e → ∃ c ∈ topFields (value.headers (cu.fieldMapping "header")).events,
        c.name = k ∧ ∃ hd, e = { header := some hd } ∧ HeaderFor v c hd) := by
  obtain ⟨r, h1, h2, -⟩ := setupResponse_entry h hafter
  obtain ⟨-, -, hh, -, -⟩ := reflectResponse_ok h1
  have hhv := hh value hv
  simp only [finishResponse] at h2
  rw [show (normaliseUnit cu).customize = none from hc] at h2
  refine ⟨_, h2, ?_⟩
  have key : ∀ resp : Response S, resp.headers = r.resp.headers →
      (∀ c ∈ topFields (value.headers (cu.fieldMapping "header")).events, (resp.headers.get? c.name).isSome) ∧
      (∀ k e, resp.headers.get? k = some e → ∃ c ∈ topFields (value.headers (cu.fieldMapping "header")).events,
        c.name = k ∧ ∃ hd, e = { header := some hd } ∧ HeaderFor v c hd) := by
    intro resp he
    rw [he]
    exact hhv
  refine key _ ?_
  repeat' split
  all_goals rfl

/-- C56: a unit without structure keeps the headers that are there. -/
theorem C56_headers_kept (v : Ver S) (env : Env S) (method : String) (after : List (ContentUnit S))
    (cu : ContentUnit S) (s s' : ReqState S) (h : setupResponse v env method (cu :: after) s = (s', .ok))
    (hafter : ∀ u ∈ after, placeOf u ≠ placeOf cu) (hc : cu.customize = none) (hv : cu.structure_ = none)
    (old : Response S) (hold : responseIn s.op (placeOf cu) = some { response := some old }) :
    ∃ resp, responseIn s'.op (placeOf cu) = some { response := some resp } ∧ resp.headers = old.headers := by
  obtain ⟨r, h1, h2, -⟩ := setupResponse_entry h hafter
  obtain ⟨-, hh, -, -, -⟩ := reflectResponse_ok h1
  have hhv := hh hv
  simp only [hold, oldResponse, Option.bind_some, Option.getD_some] at hhv
  simp only [finishResponse] at h2
  rw [show (normaliseUnit cu).customize = none from hc] at h2
  refine ⟨_, h2, ?_⟩
  have key : ∀ resp : Response S, resp.headers = r.resp.headers → resp.headers = old.headers :=
    fun resp he => he.trans hhv
  refine key _ ?_
  repeat' split
  all_goals rfl

/-! ## C54: definitions -/

/-- C54 (responses): after a successful reflection every definition that was reported for the JSON response
of a unit is a component schema. -/
theorem C54_response_definitions (v : Ver S) (env : Env S) (method : String) (cus : List (ContentUnit S))
    (s s' : ReqState S) (h : setupResponse v env method cus s = (s', .ok)) (cu : ContentUnit S) (hm : cu ∈ cus)
    (value : Value S) (hj : RespondsJSON env method cu value) (n : String) (d : JS)
    (hn : Event.defn n d ∈ value.response.events) : (s'.schemas.get? n).isSome := by
  obtain ⟨before, after, rfl⟩ := List.append_of_mem hm
  obtain ⟨s1, -, h2⟩ := setupResponse_append_ok h
  obtain ⟨r, h3, h4⟩ := setupResponse_cons_ok h2
  obtain ⟨-, -, -, hjson, -⟩ := reflectResponse_ok h3
  obtain ⟨js, sc, -, -, -, hdef⟩ := hjson value hj
  have := setupResponse_names (v := v) (env := env) (method := method) (cus := after)
    ⟨r.schemas, setRespSlot (normaliseUnit cu) (finishResponse (normaliseUnit cu) r.resp) s1.op⟩ n (hdef n d hn)
  rw [h4] at this
  exact this

/-! ## A concrete response

A unit for status 404 with a JSON body, a definition and a header. -/

/-- The field of the header. -/
def exHeader : PropCall Unit := { processed := true, pathLen := 1, name := "X-Id", schema := .bool true }

/-- The value of the example. -/
def exOutput : Value Unit where
  plain := .ok (.bool false)
  response := ⟨[.defn "Problem" (.bool true)], .ok (.obj { description := some "A problem." } none [] [] [] none [] [] none [])⟩
  headers _ := ⟨[.prop exHeader], .ok (.bool true)⟩

/-- The unit of the example. -/
def exResponse : ContentUnit Unit := { structure_ := some exOutput, httpStatus := 404, contentType := "application/problem+json; charset=utf-8" }

/-- The stored response of the example. -/
def exStored : Response Unit where
  description := "A problem."
  headers := [("X-Id", { header := some { schema := some () } })]
  content := [("application/problem+json", { schema := some () })]

/-- An environment for the example: the schema marshals to something. -/
def exRespEnv : Env Unit := ⟨{}, .ok false, id, fun _ => .ok "{\"type\":\"string\"}"⟩

example : ∃ s', setupResponse exampleVer exRespEnv "get" [exResponse, { httpStatus := 2 }, { isDefault := true, description := "else" }] ⟨[], {}⟩ = (s', .ok) ∧
    responseIn s'.op (some "404") = some { response := some exStored } ∧
    responseIn s'.op (some "2XX") = some { response := some {} } ∧
    responseIn s'.op none = some { response := some { description := "else" } } ∧
    s'.schemas = [("Problem", ())] := by
  refine ⟨_, rfl, by decide +kernel, by decide +kernel, by decide +kernel, by decide +kernel⟩

/-- It meets the hypotheses of the theorems above. -/
example : RespondsJSON exRespEnv "get" exResponse exOutput ∧ placeOf exResponse = some "404" ∧
    (∀ ct, KeepsRespContent exResponse ct) ∧ ¬ HasRawTag exResponse "application/problem+json" ∧
    jsonContentType { exResponse with contentType := beforeSemicolon exResponse.contentType } = "application/problem+json" := by
  refine ⟨⟨by decide +kernel, rfl, ?_⟩, by decide +kernel, ?_, ?_, by decide +kernel⟩
  · rintro ⟨js, j, -, hm, hj⟩
    cases hm
    rcases hj with hj | hj <;> exact absurd hj (by decide +kernel)
  · intro ct f hf; cases hf
  · rintro ⟨value, hv, hm⟩
    cases hv
    cases hm

/-- C17, concrete: the same unit has no content for HEAD. -/
example : ∃ s', setupResponse exampleVer exRespEnv "Head" [exResponse] ⟨[], {}⟩ = (s', .ok) ∧
    (responseIn s'.op (some "404")).map (fun r => (r.response.map (·.content))) = some (some []) := by
  refine ⟨_, rfl, by decide +kernel⟩

end Verif
