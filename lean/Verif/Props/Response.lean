import Verif.Lemmas.Success

/-!
# Properties of reflected responses (C17, C18, C19, C23, C54, C55, C56)

All theorems hold for both reflectors (`v`), every environment (`env`) and everything that the dependencies
may report about the given values.
-/

namespace Verif
variable {S : Type}

/-! ## Places -/

theorem statusKey_eq (n : Int) : statusKey n = if 1 ≤ n ∧ n ≤ 5 then toString n ++ "XX" else toString n := by
  unfold statusKey
  rw [itoa_toString]
  by_cases h : 1 ≤ n ∧ n ≤ 5
  · rw [if_pos h, if_pos (by omega)]
  · rw [if_neg h, if_neg (by omega)]

theorem normaliseUnit_default (cu : ContentUnit S) : (normaliseUnit cu).isDefault = cu.isDefault := rfl

theorem normaliseUnit_status (cu : ContentUnit S) (h : cu.isDefault = false) :
    (normaliseUnit cu).httpStatus = effectiveStatus cu := by
  simp only [normaliseUnit, effectiveStatus, h, Bool.not_false, and_true]

theorem respSlot_eq (cu : ContentUnit S) (op : Operation S) :
    respSlot (normaliseUnit cu) op = responseIn op (placeOf cu) := by
  unfold respSlot placeOf
  rw [normaliseUnit_default]
  cases hd : cu.isDefault
  · simp only [Bool.false_eq_true, if_false, normaliseUnit_status cu hd, statusKey_eq]
    split <;> rfl
  · rfl

theorem responseIn_set (cu : ContentUnit S) (r : ResponseOrRef S) (op : Operation S) (p : Option String) :
    responseIn (setRespSlot (normaliseUnit cu) r op) p = if p = placeOf cu then some r else responseIn op p := by
  unfold setRespSlot placeOf
  rw [normaliseUnit_default]
  cases hd : cu.isDefault
  · simp only [Bool.false_eq_true, if_false, normaliseUnit_status cu hd, statusKey_eq]
    cases p with
    | none => split <;> rfl
    | some k =>
      split <;> simp only [responseIn, GoMap.get?_set, Option.some.injEq]
  · cases p with
    | none => rfl
    | some k => rfl

/-- Where an operation and its copy with other responses agree. -/
theorem setRespSlot_rest (cu : ContentUnit S) (r : ResponseOrRef S) (op : Operation S) :
    setRespSlot cu r op = { op with responses := (setRespSlot cu r op).responses } := by
  unfold setRespSlot
  split <;> rfl

/-! ## Everything that `setupResponse` does, as single steps -/

/-- The response that is there, or an empty one. -/
abbrev oldResponse (cu : ContentUnit S) (op : Operation S) : Response S :=
  ((responseIn op (placeOf cu)).bind (·.response)).getD {}

/-- One step of `setupResponse`. -/
inductive EntryStep (v : Ver S) (env : Env S) (method : String) (cus : List (ContentUnit S)) :
    ReqState S → ReqState S → Prop
  | stored {s : ReqState S} {cu : ContentUnit S} {r : RespState S} (mem : cu ∈ cus)
      (refl : reflectResponse v env method (normaliseUnit cu) ⟨s.schemas, oldResponse cu s.op⟩ = (r, .ok)) :
      EntryStep v env method cus s
        ⟨r.schemas, setRespSlot (normaliseUnit cu) (finishResponse (normaliseUnit cu) r.resp) s.op⟩
  | edited {s : ReqState S} {cu : ContentUnit S} {r : RespState S} {out : Out} {e : ResponseOrRef S} (mem : cu ∈ cus)
      (refl : reflectResponse v env method (normaliseUnit cu) ⟨s.schemas, oldResponse cu s.op⟩ = (r, out))
      (there : responseIn s.op (placeOf cu) = some e) (resp : e.response.isSome) :
      EntryStep v env method cus s ⟨r.schemas, setRespSlot (normaliseUnit cu) { e with response := some r.resp } s.op⟩
  | kept {s : ReqState S} {cu : ContentUnit S} {r : RespState S} {out : Out} {e : ResponseOrRef S} (mem : cu ∈ cus)
      (refl : reflectResponse v env method (normaliseUnit cu) ⟨s.schemas, oldResponse cu s.op⟩ = (r, out))
      (there : responseIn s.op (placeOf cu) = some e) :
      EntryStep v env method cus s ⟨r.schemas, setRespSlot (normaliseUnit cu) e s.op⟩
  | created {s : ReqState S} {cu : ContentUnit S} {r : RespState S} {out : Out} (mem : cu ∈ cus)
      (refl : reflectResponse v env method (normaliseUnit cu) ⟨s.schemas, oldResponse cu s.op⟩ = (r, out))
      (there : responseIn s.op (placeOf cu) = none) (dflt : cu.isDefault = true) :
      EntryStep v env method cus s ⟨r.schemas, setRespSlot (normaliseUnit cu) {} s.op⟩
  | absent {s : ReqState S} {cu : ContentUnit S} {r : RespState S} {out : Out} (mem : cu ∈ cus)
      (refl : reflectResponse v env method (normaliseUnit cu) ⟨s.schemas, oldResponse cu s.op⟩ = (r, out)) :
      EntryStep v env method cus s ⟨r.schemas, s.op⟩

theorem setupResponse_within (v : Ver S) (env : Env S) (method : String) (cus : List (ContentUnit S)) :
    Within (EntryStep v env method cus) (setupResponse v env method cus) := by
  have key : ∀ cus' : List (ContentUnit S), (∀ cu ∈ cus', cu ∈ cus) →
      Within (EntryStep v env method cus) (setupResponse v env method cus') := by
    intro cus'
    induction cus' with
    | nil => intro _ s; exact .refl s
    | cons cu cus' ih =>
      intro hm s
      have hmem := hm cu (by simp)
      simp only [setupResponse, respSlot_eq]
      split
      · rename_i r h1
        exact (Star.one (.stored hmem h1)).trans (ih (fun c hc => hm c (by simp [hc])) _)
      · rename_i r out hne h1
        refine .one ?_
        cases hslot : responseIn s.op (placeOf cu) with
        | none =>
          by_cases hd : (normaliseUnit cu).isDefault = true
          · simp only [if_pos hd]
            exact .created hmem h1 hslot hd
          · simp only [if_neg hd]
            exact .absent hmem h1
        | some e =>
          by_cases hr : e.response.isSome = true
          · simp only [if_pos hr]
            exact .edited hmem h1 hslot hr
          · simp only [if_neg hr]
            exact .kept hmem h1 hslot
  exact key cus (fun _ h => h)

theorem setupResponse_cons_ok {v : Ver S} {env : Env S} {method : String} {cu : ContentUnit S}
    {cus : List (ContentUnit S)} {s s' : ReqState S} (h : setupResponse v env method (cu :: cus) s = (s', .ok)) :
    ∃ r, reflectResponse v env method (normaliseUnit cu) ⟨s.schemas, oldResponse cu s.op⟩ = (r, .ok) ∧
      setupResponse v env method cus
        ⟨r.schemas, setRespSlot (normaliseUnit cu) (finishResponse (normaliseUnit cu) r.resp) s.op⟩ = (s', .ok) := by
  simp only [setupResponse, respSlot_eq] at h
  split at h
  · rename_i r h1
    exact ⟨r, h1, h⟩
  · rename_i r out hne h1
    exfalso
    have : out = .ok := congrArg Prod.snd h
    exact hne this

theorem setupResponse_append_ok {v : Ver S} {env : Env S} {method : String} {a b : List (ContentUnit S)}
    {s s' : ReqState S} (h : setupResponse v env method (a ++ b) s = (s', .ok)) :
    ∃ s1, setupResponse v env method a s = (s1, .ok) ∧ setupResponse v env method b s1 = (s', .ok) := by
  induction a generalizing s with
  | nil => exact ⟨s, rfl, h⟩
  | cons cu a ih =>
    obtain ⟨r, h1, h2⟩ := setupResponse_cons_ok h
    obtain ⟨s2, h3, h4⟩ := ih h2
    refine ⟨s2, ?_, h4⟩
    simp only [setupResponse, respSlot_eq, h1]
    exact h3

/-- Reflecting responses changes nothing else in the operation, whatever the outcome. -/
theorem setupResponse_rest (v : Ver S) (env : Env S) (method : String) (cus : List (ContentUnit S)) (s : ReqState S) :
    (setupResponse v env method cus s).1.op = { s.op with responses := (setupResponse v env method cus s).1.op.responses } := by
  refine Star.inv (P := fun a : ReqState S => a.op = { s.op with responses := a.op.responses }) ?_
    (setupResponse_within v env method cus s) rfl
  intro a b h ha
  cases h with
  | stored => show setRespSlot _ _ _ = _; rw [setRespSlot_rest, ha]
  | edited => show setRespSlot _ _ _ = _; rw [setRespSlot_rest, ha]
  | kept => show setRespSlot _ _ _ = _; rw [setRespSlot_rest, ha]
  | created => show setRespSlot _ _ _ = _; rw [setRespSlot_rest, ha]
  | absent => exact ha

/-! ## C18: where responses are stored -/

/-- C18: places of which no unit is about are not touched, whatever the outcome. -/
theorem C18_other_places (v : Ver S) (env : Env S) (method : String) (cus : List (ContentUnit S)) (s : ReqState S)
    (p : Option String) (hp : ∀ cu ∈ cus, placeOf cu ≠ p) :
    responseIn (setupResponse v env method cus s).1.op p = responseIn s.op p := by
  refine Star.inv (P := fun a : ReqState S => responseIn a.op p = responseIn s.op p) ?_
    (setupResponse_within v env method cus s) rfl
  intro a b h ha
  cases h with
  | stored mem => show responseIn (setRespSlot _ _ _) p = _; rw [responseIn_set, if_neg (fun e => hp _ mem e.symm)]; exact ha
  | edited mem => show responseIn (setRespSlot _ _ _) p = _; rw [responseIn_set, if_neg (fun e => hp _ mem e.symm)]; exact ha
  | kept mem => show responseIn (setRespSlot _ _ _) p = _; rw [responseIn_set, if_neg (fun e => hp _ mem e.symm)]; exact ha
  | created mem => show responseIn (setRespSlot _ _ _) p = _; rw [responseIn_set, if_neg (fun e => hp _ mem e.symm)]; exact ha
  | absent => exact ha

/-- C18: after a successful reflection there is a response in a place exactly if there was one, or some
unit is about that place: status 0 means 200, 1 to 5 mean `1XX` to `5XX`, and a default unit is the
default response whatever its status. -/
theorem C18_places (v : Ver S) (env : Env S) (method : String) (cus : List (ContentUnit S)) (s s' : ReqState S)
    (h : setupResponse v env method cus s = (s', .ok)) (p : Option String) :
    (responseIn s'.op p).isSome ↔ (responseIn s.op p).isSome ∨ ∃ cu ∈ cus, placeOf cu = p := by
  induction cus generalizing s with
  | nil => cases h; simp
  | cons cu cus ih =>
    obtain ⟨r, h1, h2⟩ := setupResponse_cons_ok h
    rw [ih _ h2, responseIn_set]
    simp only [List.mem_cons, exists_eq_or_imp]
    by_cases e : p = placeOf cu
    · simp [e]
    · simp only [if_neg e, fun h : placeOf cu = p => e h.symm, false_or]
      have : ¬ placeOf cu = p := fun h => e h.symm
      simp [this]

/-- C18: the response of a unit is stored in its place as a response, not as a reference, unless the unit
has a customisation. -/
theorem C18_stored (v : Ver S) (env : Env S) (method : String) (before after : List (ContentUnit S))
    (cu : ContentUnit S) (s s' : ReqState S)
    (h : setupResponse v env method (before ++ cu :: after) s = (s', .ok))
    (hc : cu.customize = none) (hafter : ∀ u ∈ after, placeOf u ≠ placeOf cu) :
    ∃ resp, responseIn s'.op (placeOf cu) = some { response := some resp, ref := none } := by
  obtain ⟨s1, -, h2⟩ := setupResponse_append_ok h
  obtain ⟨r, h3, h4⟩ := setupResponse_cons_ok h2
  have := C18_other_places v env method after
    ⟨r.schemas, setRespSlot (normaliseUnit cu) (finishResponse (normaliseUnit cu) r.resp) s1.op⟩ (placeOf cu) hafter
  rw [h4] at this
  rw [this, responseIn_set, if_pos rfl]
  simp only [finishResponse, normaliseUnit, hc]
  exact ⟨_, rfl⟩

/-! ## The result of one unit -/

/-- What `finishResponse` does to the content. -/
theorem finishResponse_content (cu : ContentUnit S) (resp : Response S) (ct : String) (h : KeepsRespContent cu ct) :
    (finishResponse cu resp).response.bind (·.content.get? ct) = resp.content.get? ct := by
  have key : ∀ resp' : Response S, resp'.content.get? ct = resp.content.get? ct →
      (match cu.customize with
        | some f => f.resp { response := some resp' }
        | none => { response := some resp' }).response.bind (·.content.get? ct) = resp.content.get? ct := by
    intro resp' he
    split
    · rename_i f hf
      rw [h f hf]
      exact he
    · exact he
  unfold finishResponse
  refine key _ ?_
  repeat' split
  all_goals rfl

theorem respContent_set (cu : ContentUnit S) (r : ResponseOrRef S) (op : Operation S) (p : Option String) (ct : String) :
    respContent (setRespSlot (normaliseUnit cu) r op) p ct =
      if p = placeOf cu then r.response.bind (·.content.get? ct) else respContent op p ct := by
  unfold respContent
  rw [responseIn_set]
  split
  · rfl
  · rfl

theorem oldResponse_content (cu : ContentUnit S) (op : Operation S) (ct : String) :
    (oldResponse cu op).content.get? ct = respContent op (placeOf cu) ct := by
  unfold oldResponse respContent
  cases (responseIn op (placeOf cu)).bind (·.response) with
  | none => rfl
  | some r => rfl

theorem normaliseUnit_keeps {cu : ContentUnit S} {ct : String} (h : KeepsRespContent cu ct) :
    KeepsRespContent (normaliseUnit cu) ct := h

/-- Media types after one step, by what holds for the reflection of the unit. -/
theorem entryStep_content {v : Ver S} {env : Env S} {method : String} {cus : List (ContentUnit S)}
    {s s' : ReqState S} (h : EntryStep v env method cus s s') (p : Option String) (ct : String)
    (hk : ∀ cu ∈ cus, KeepsRespContent cu ct) (P : Option (MediaType S) → Prop)
    (hP : ∀ cu ∈ cus, placeOf cu = p → ∀ r : RespState S, P (r.resp.content.get? ct) →
      P ((reflectResponse v env method (normaliseUnit cu) r).1.resp.content.get? ct))
    (h0 : P (respContent s.op p ct)) : P (respContent s'.op p ct) := by
  cases h with
  | @stored cu r mem refl =>
    simp only [respContent_set]
    split
    · rename_i e
      rw [finishResponse_content _ _ _ (normaliseUnit_keeps (hk cu mem))]
      have := hP cu mem e.symm ⟨s.schemas, oldResponse cu s.op⟩ (by rw [oldResponse_content, ← e]; exact h0)
      rw [refl] at this
      exact this
    · exact h0
  | @edited cu r out e mem refl there resp =>
    simp only [respContent_set]
    split
    · rename_i e
      have := hP cu mem e.symm ⟨s.schemas, oldResponse cu s.op⟩ (by rw [oldResponse_content, ← e]; exact h0)
      rw [refl] at this
      exact this
    · exact h0
  | @kept cu r out e mem refl there =>
    simp only [respContent_set]
    split
    · rename_i e
      rw [e] at h0
      simp only [respContent, there, Option.bind_some] at h0
      exact h0
    · exact h0
  | @created cu r out mem refl there dflt =>
    simp only [respContent_set]
    split
    · rename_i e
      rw [e] at h0
      simp only [respContent, there, Option.bind_none] at h0
      exact h0
    · exact h0
  | absent => exact h0

/-! ## C17: HEAD -/

/-- C17: the responses of a HEAD operation, in any spelling, get no media types, whatever the outcome, if
customisations do not add any. -/
theorem C17_head_no_content (v : Ver S) (env : Env S) (method : String) (cus : List (ContentUnit S)) (s : ReqState S)
    (hm : MethodIs method "head") (hk : ∀ cu ∈ cus, ∀ ct, KeepsRespContent cu ct) (p : Option String) (ct : String) :
    respContent (setupResponse v env method cus s).1.op p ct = respContent s.op p ct := by
  refine Star.inv (P := fun a : ReqState S => respContent a.op p ct = respContent s.op p ct) ?_
    (setupResponse_within v env method cus s) rfl
  intro a b h ha
  refine entryStep_content h p ct (fun cu hc => hk cu hc ct) (fun o => o = respContent s.op p ct) ?_ ha
  intro cu _ _ r hr
  simp only [reflectResponse, (upper_head method).mpr hm]
  rw [if_neg (by simp)]
  rw [(parseResponseHeader_frame v env (normaliseUnit cu) r).1]
  exact hr

/-! ## C19: content types of responses -/

theorem respStep_content_some {v : Ver S} {env : Env S} {cu : ContentUnit S} {r r' : RespState S} {ct : String}
    (h : Star (RespStep v env cu) r r') (h0 : (r.resp.content.get? ct).isSome) : (r'.resp.content.get? ct).isSome := by
  refine Star.inv (P := fun a : RespState S => (a.resp.content.get? ct).isSome) ?_ h h0
  intro a b h ha
  cases h with
  | json => simp only [GoMap.get?_set]; split <;> simp [ha]
  | ensure => simp only [GoMap.get?_set]; split <;> simp [ha]
  | replace => simp only [GoMap.get?_set]; split <;> simp [ha]
  | _ => exact ha

/-- C19 (responses): further units keep every content type of every response, whatever the outcome, if
their customisation does. -/
theorem C19_response_kept (v : Ver S) (env : Env S) (method : String) (cus : List (ContentUnit S)) (s : ReqState S)
    (p : Option String) (ct : String) (hk : ∀ cu ∈ cus, KeepsRespContent cu ct)
    (h : (respContent s.op p ct).isSome) :
    (respContent (setupResponse v env method cus s).1.op p ct).isSome := by
  refine Star.inv (P := fun a : ReqState S => (respContent a.op p ct).isSome) ?_
    (setupResponse_within v env method cus s) h
  intro a b h ha
  refine entryStep_content h p ct hk (fun o => o.isSome) ?_ ha
  intro cu _ _ r hr
  exact respStep_content_some (reflectResponse_within v env (normaliseUnit cu) method r) hr

theorem respStep_untouched {v : Ver S} {env : Env S} {cu : ContentUnit S} {r r' : RespState S} {ct : String}
    (h : Star (RespStep v env cu) r r') (hn : ¬ ResponseMime cu ct) :
    r'.resp.content.get? ct = r.resp.content.get? ct := by
  refine Star.inv (P := fun a : RespState S => a.resp.content.get? ct = r.resp.content.get? ct) ?_ h rfl
  intro a b h ha
  cases h with
  | @json refl js sc rj =>
    simp only [GoMap.get?_set]
    rw [if_neg]
    · exact ha
    · intro e
      refine hn (.inr (.inl ⟨?_, e⟩))
      intro h0
      simp only [reflectJSONResponse, h0] at rj
      cases rj
  | @ensure ct' sc why =>
    simp only [GoMap.get?_set]
    rw [if_neg]
    · exact ha
    · intro e
      subst e
      exact hn (why.imp id .inr)
  | @replace ct' sc ver why =>
    simp only [GoMap.get?_set]
    rw [if_neg]
    · exact ha
    · intro e
      subst e
      exact hn (.inl why)
  | _ => exact ha

/-- C19 (responses): a media type of a response changes only if a unit for that place writes its content
type (parameters of the content type, from the semicolon on, are ignored). -/
theorem C19_response_untouched (v : Ver S) (env : Env S) (method : String) (cus : List (ContentUnit S)) (s : ReqState S)
    (p : Option String) (ct : String) (hk : ∀ cu ∈ cus, KeepsRespContent cu ct)
    (hw : ∀ cu ∈ cus, placeOf cu = p → ¬ ResponseMime { cu with contentType := beforeSemicolon cu.contentType } ct) :
    respContent (setupResponse v env method cus s).1.op p ct = respContent s.op p ct := by
  refine Star.inv (P := fun a : ReqState S => respContent a.op p ct = respContent s.op p ct) ?_
    (setupResponse_within v env method cus s) rfl
  intro a b h ha
  refine entryStep_content h p ct hk (fun o => o = respContent s.op p ct) ?_ ha
  intro cu hm hp r hr
  rw [respStep_untouched (reflectResponse_within v env (normaliseUnit cu) method r) (hw cu hm hp)]
  exact hr

/-! ## What a successful reflection of one response has done -/

theorem constraintsOf_eq (env : Env S) (plain : Except String JS) :
    hasJSONBody env plain = match plain with
      | .error e => .error e
      | .ok js => match env.marshal (constraintsOf js) with
        | .error e => .error e
        | .ok j => .ok (j ≠ "{}" && j ≠ "{\"type\":\"object\"}") := by
  cases plain with
  | error e => rfl
  | ok js => cases js <;> rfl

theorem reflectJSON_iff (env : Env S) (cu : ContentUnit S) (refl : Reflection S) :
    reflectJSONResponse env cu = some refl ↔
      ∃ value, cu.structure_ = some value ∧ ¬ NoJSONBody env value ∧ refl = value.response := by
  unfold reflectJSONResponse
  cases hs : cu.structure_ with
  | none => simp
  | some value =>
    have key : hasJSONBody env value.plain = .ok false ↔ NoJSONBody env value := by
      rw [constraintsOf_eq]
      unfold NoJSONBody
      cases hp : value.plain with
      | error e => simp
      | ok js =>
        simp only
        cases hmm : env.marshal (constraintsOf js) with
        | error e => simp [hmm]
        | ok j =>
          simp only [Except.ok.injEq, Bool.and_eq_false_iff, decide_eq_false_iff_not, ne_eq, Decidable.not_not]
          constructor
          · intro h; exact ⟨js, j, rfl, hmm, h⟩
          · rintro ⟨js', j', e, hm', h⟩
            cases e
            rw [hmm] at hm'
            cases hm'
            exact h
    simp only [Option.some.injEq, exists_eq_left']
    split
    · rename_i hb
      simp [key.mp hb]
    · rename_i hb
      have : ¬ NoJSONBody env value := fun h => hb (key.mpr h)
      simp only [this, not_false_eq_true, true_and, Option.some.injEq]
      exact eq_comm

theorem reflectJSON_none (env : Env S) (cu : ContentUnit S) :
    reflectJSONResponse env cu = none ↔ ∀ value, cu.structure_ = some value → NoJSONBody env value := by
  cases h : reflectJSONResponse env cu with
  | none =>
    simp only [true_iff]
    intro value hv
    refine Classical.byContradiction fun hn => ?_
    have := (reflectJSON_iff env cu value.response).mpr ⟨value, hv, hn, rfl⟩
    rw [h] at this; cases this
  | some refl =>
    obtain ⟨value, hv, hn, -⟩ := (reflectJSON_iff env cu refl).mp h
    simp only [reduceCtorEq, false_iff]
    exact fun hall => hn (hall value hv)

theorem runRespDefs_ok {v : Ver S} {env : Env S} {es : List (Event S)} {s s' : RespState S}
    (h : runEvents env (fun _ s => (s, .ok)) (onRespDefinition v) es s = (s', .ok)) :
    s'.resp = s.resp ∧ NamesKept s.schemas s'.schemas ∧ ∀ n d, Event.defn n d ∈ es → (s'.schemas.get? n).isSome := by
  induction es generalizing s with
  | nil => cases h; exact ⟨rfl, .refl _, by simp⟩
  | cons e es ih =>
    obtain ⟨s1, h1, h2⟩ := runEvents_cons_ok h
    obtain ⟨i1, i2, i3⟩ := ih h2
    cases e with
    | prop c =>
      cases h1
      exact ⟨i1, i2, fun n d hm => i3 n d (by simpa using hm)⟩
    | defn n0 d0 =>
      simp only [onRespDefinition] at h1
      generalize hc : collectDefinition v n0 d0 s.schemas = r at h1
      obtain ⟨m, o⟩ := r
      cases h1
      refine ⟨i1, (collectDefinition_names hc).trans i2, ?_⟩
      intro n d hm
      rcases List.mem_cons.mp hm with e | hm
      · cases e; exact i2 n0 (collectDefinition_ok hc)
      · exact i3 n d hm

/-- The description that `describeFrom` leaves. -/
theorem describeFrom_description (js : JS) (r : Response S) :
    (describeFrom js r).description = firstNonEmpty [r.description, js.description.getD ""] := by
  unfold describeFrom
  cases hd : js.description with
  | none => simp only [firstNonEmpty]; split <;> simp_all
  | some d =>
    by_cases h : r.description = ""
    · simp only [firstNonEmpty, h, if_true, Option.getD_some]; split <;> simp_all
    · simp only [firstNonEmpty, h, if_false]

theorem parseJSONResponse_ok {v : Ver S} {env : Env S} {cu : ContentUnit S} {s s' : RespState S}
    (h : parseJSONResponse v env cu s = (s', .ok)) :
    (reflectJSONResponse env cu = none ∧ s' = s) ∨
    ∃ refl js sc, reflectJSONResponse env cu = some refl ∧ refl.result = .ok js ∧ v.conv js = .ok sc ∧
      s'.resp.content = s.resp.content.set (jsonContentType cu) (jsonMedia v cu s.resp sc) ∧
      s'.resp.headers = s.resp.headers ∧
      s'.resp.description = firstNonEmpty [s.resp.description, js.description.getD ""] ∧
      NamesKept s.schemas s'.schemas ∧ ∀ n d, Event.defn n d ∈ refl.events → (s'.schemas.get? n).isSome := by
  simp only [parseJSONResponse] at h
  split at h
  · rename_i hr; cases h; exact .inl ⟨hr, rfl⟩
  · rename_i refl hr
    split at h
    · rename_i s1 h1
      obtain ⟨i1, i2, i3⟩ := runRespDefs_ok h1
      split at h
      · cases h
      · rename_i js hjs
        split at h
        · cases h
        · cases h
        · rename_i sc hc
          cases h
          refine .inr ⟨refl, js, sc, hr, hjs, hc, ?_, ?_, ?_, i2, i3⟩
          · rw [describeFrom_content, i1]; rfl
          · rw [describeFrom_headers, i1]
          · rw [describeFrom_description, i1]
    · rename_i hne
      exact absurd h (hne _)

/-- The headers are exactly those of the fields. -/
def HeadersFrom (v : Ver S) (fields : List (PropCall S)) (hs : GoMap (HeaderOrRef S)) : Prop :=
  (∀ c ∈ fields, (hs.get? c.name).isSome) ∧
  (∀ k e, hs.get? k = some e → ∃ c ∈ fields, c.name = k ∧ ∃ h, e = { header := some h } ∧ HeaderFor v c h)

theorem onHeader_ok {v : Ver S} {c : PropCall S} {m m' : GoMap (HeaderOrRef S)} (h : onHeader v c m = (m', .ok)) :
    (¬ (c.processed = true ∧ c.pathLen ≤ 1) ∧ m' = m) ∨
    ((c.processed = true ∧ c.pathLen ≤ 1) ∧ ∃ hd, HeaderFor v c hd ∧ m' = m.set c.name { header := some hd }) := by
  simp only [onHeader] at h
  split at h
  · rename_i hg
    cases h
    refine .inl ⟨?_, rfl⟩
    simp only [Bool.or_eq_true, Bool.not_eq_true', decide_eq_true_eq] at hg
    rintro ⟨h1, h2⟩
    rcases hg with hg | hg
    · rw [h1] at hg; cases hg
    · omega
  · rename_i hg
    have hy : c.processed = true ∧ c.pathLen ≤ 1 := by
      simp only [Bool.or_eq_true, Bool.not_eq_true', decide_eq_true_eq, not_or, Bool.not_eq_false] at hg
      exact ⟨hg.1, by omega⟩
    split at h
    · cases h
    · cases h
    · rename_i sc hc
      split at h
      · cases h
      · rename_i dep hd
        split at h
        · cases h
        · rename_i hh hp
          cases h
          exact .inr ⟨hy, hh, ⟨sc, dep, hc, hd, hp⟩, rfl⟩

theorem runHeaders_ok {v : Ver S} {env : Env S} {es : List (Event S)} {m m' : GoMap (HeaderOrRef S)}
    {fields : List (PropCall S)} (h0 : HeadersFrom v fields m)
    (h : runEvents env (onHeader v) (fun _ _ s => (s, .ok)) es m = (m', .ok)) :
    HeadersFrom v (fields ++ topFields es) m' := by
  induction es generalizing m fields with
  | nil => cases h; simpa [topFields] using h0
  | cons e es ih =>
    obtain ⟨m1, h1, h2⟩ := runEvents_cons_ok h
    rw [topFields_cons, ← List.append_assoc]
    refine ih ?_ h2
    cases e with
    | defn n d =>
      cases h1
      simpa [topFields] using h0
    | prop c =>
      rcases onHeader_ok h1 with ⟨hn, rfl⟩ | ⟨hy, hd, hf, rfl⟩
      · simpa only [topFields, List.filterMap_cons, if_neg hn, List.filterMap_nil, List.append_nil] using h0
      · simp only [topFields, List.filterMap_cons, if_pos hy, List.filterMap_nil]
        refine ⟨?_, ?_⟩
        · intro c' hc'
          rw [GoMap.get?_set]
          split
          · rfl
          · rename_i hne
            simp only [List.mem_append, List.mem_singleton] at hc'
            rcases hc' with hc' | rfl
            · exact h0.1 c' hc'
            · exact absurd rfl hne
        · intro k e hk
          rw [GoMap.get?_set] at hk
          split at hk
          · rename_i hkk
            cases hk
            exact ⟨c, by simp, hkk.symm, hd, rfl, hf⟩
          · obtain ⟨c', hc', r⟩ := h0.2 k e hk
            exact ⟨c', by simp [hc'], r⟩

theorem parseResponseHeader_ok {v : Ver S} {env : Env S} {cu : ContentUnit S} {s s' : RespState S}
    (h : parseResponseHeader v env cu s = (s', .ok)) :
    s'.schemas = s.schemas ∧ s'.resp.content = s.resp.content ∧
    (∃ dh, HeaderDescription cu dh ∧ s'.resp.description = firstNonEmpty [s.resp.description, dh]) ∧
    (cu.structure_ = none → s'.resp.headers = s.resp.headers) ∧
    (∀ value, cu.structure_ = some value →
      HeadersFrom v (topFields (value.headers (cu.fieldMapping "header")).events) s'.resp.headers) := by
  have hfr := parseResponseHeader_frame v env cu s
  rw [h] at hfr
  refine ⟨hfr.2, hfr.1, ?_⟩
  simp only [parseResponseHeader] at h
  split at h
  · rename_i hn
    cases h
    refine ⟨⟨"", ⟨fun value js hv => ?_, fun _ => rfl⟩, ?_⟩, fun _ => rfl, fun value hv => ?_⟩
    · rw [hn] at hv; cases hv
    · simp only [firstNonEmpty]; split <;> simp_all
    · rw [hn] at hv; cases hv
  · rename_i value hv
    split at h
    · rename_i res hres
      split at h
      · cases h
      · rename_i js hjs
        cases h
        have hh := runHeaders_ok (fields := []) (v := v) ⟨by simp, by simp [GoMap.get?]⟩ hres
        refine ⟨⟨js.description.getD "", ⟨?_, ?_⟩, ?_⟩, ?_, ?_⟩
        · intro value' js' hv' hjs'
          rw [hv] at hv'; cases hv'
          rw [hjs] at hjs'; cases hjs'
          rfl
        · intro hn; rw [hv] at hn; cases hn
        · rw [describeFrom_description]
        · intro hn; rw [hv] at hn; cases hn
        · intro value' hv'
          rw [hv] at hv'; cases hv'
          rw [describeFrom_headers]
          simpa using hh
    · rename_i hne hr
      have : _ = Out.ok := congrArg Prod.snd h
      exact absurd this hne

theorem ensure_ok {v : Ver S} {ct format : String} {s s' : RespState S}
    (h : ensureResponseContentType v ct format s = (s', .ok)) :
    s'.schemas = s.schemas ∧ s'.resp.headers = s.resp.headers ∧ s'.resp.description = s.resp.description ∧
    (s'.resp.content.get? ct).isSome ∧ (∀ ct' mt, s.resp.content.get? ct' = some mt → s'.resp.content.get? ct' = some mt) := by
  simp only [ensureResponseContentType] at h
  split at h
  · rename_i mt hmt
    cases h
    exact ⟨rfl, rfl, rfl, by simp [hmt], fun _ _ h => h⟩
  · rename_i hnone
    split at h
    · cases h
      refine ⟨rfl, rfl, rfl, by simp [GoMap.get?_set_self], ?_⟩
      intro ct' mt hmt
      simp only [GoMap.get?_set]
      split
      · rename_i e; rw [e, hnone] at hmt; cases hmt
      · exact hmt
    · cases h

theorem rawTag_ok {v : Ver S} {ct : String} {s s' : RespState S} (h : rawResponseTag v ct s = (s', .ok)) :
    s'.schemas = s.schemas ∧ s'.resp.headers = s.resp.headers ∧ s'.resp.description = s.resp.description ∧
    (s'.resp.content.get? ct).isSome ∧
    (∀ ct' mt, (v.rawReplaces = true → ct' ≠ ct) → s.resp.content.get? ct' = some mt → s'.resp.content.get? ct' = some mt) ∧
    NamesKept s.resp.content s'.resp.content := by
  simp only [rawResponseTag] at h
  split at h
  · rename_i hv
    split at h
    · cases h
      refine ⟨rfl, rfl, rfl, by simp [GoMap.get?_set_self], ?_, namesKept_set _ _ _⟩
      intro ct' mt hne hmt
      simp only [GoMap.get?_set]
      rw [if_neg (hne hv)]
      exact hmt
    · cases h
  · obtain ⟨a, b, c, d, e⟩ := ensure_ok h
    refine ⟨a, b, c, d, fun ct' mt _ hmt => e ct' mt hmt, ?_⟩
    intro n hn
    obtain ⟨mt, hmt⟩ := Option.isSome_iff_exists.mp hn
    rw [e n mt hmt]; rfl

theorem rawBodies_ok {v : Ver S} {cu : ContentUnit S} {s s' : RespState S}
    (h : parseRawResponseBody v cu s = (s', .ok)) :
    s'.schemas = s.schemas ∧ s'.resp.headers = s.resp.headers ∧ s'.resp.description = s.resp.description ∧
    (∀ ct, HasRawTag cu ct → (s'.resp.content.get? ct).isSome) ∧
    (∀ ct mt, (v.rawReplaces = true → ¬ HasRawTag cu ct) → s.resp.content.get? ct = some mt →
      s'.resp.content.get? ct = some mt) := by
  simp only [parseRawResponseBody] at h
  split at h
  · rename_i hn
    cases h
    refine ⟨rfl, rfl, rfl, ?_, fun _ _ _ h => h⟩
    rintro ct ⟨value, hv, -⟩
    rw [hn] at hv; cases hv
  · rename_i value hv
    have key : ∀ (cts : List String) (s s' : RespState S), foldActs (rawResponseTag v) cts s = (s', .ok) →
        s'.schemas = s.schemas ∧ s'.resp.headers = s.resp.headers ∧ s'.resp.description = s.resp.description ∧
        (∀ ct ∈ cts, (s'.resp.content.get? ct).isSome) ∧
        (∀ ct mt, (v.rawReplaces = true → ct ∉ cts) → s.resp.content.get? ct = some mt →
          s'.resp.content.get? ct = some mt) ∧ NamesKept s.resp.content s'.resp.content := by
      intro cts
      induction cts with
      | nil => intro s s' h; cases h; exact ⟨rfl, rfl, rfl, by simp, fun _ _ _ h => h, .refl _⟩
      | cons ct cts ih =>
        intro s s' h
        obtain ⟨s1, h1, h2⟩ := foldActs_cons_ok h
        obtain ⟨a1, a2, a3, a4, a5, a6⟩ := rawTag_ok h1
        obtain ⟨b1, b2, b3, b4, b5, b6⟩ := ih s1 s' h2
        refine ⟨b1.trans a1, b2.trans a2, b3.trans a3, ?_, ?_, a6.trans b6⟩
        · intro ct' hm
          rcases List.mem_cons.mp hm with rfl | hm
          · exact b6 _ a4
          · exact b4 ct' hm
        · intro ct' mt hne hmt
          refine b5 ct' mt (fun hv hm => hne hv (by simp [hm])) (a5 ct' mt (fun hv e => hne hv (by simp [e])) hmt)
    obtain ⟨k1, k2, k3, k4, k5, -⟩ := key _ s s' h
    refine ⟨k1, k2, k3, ?_, ?_⟩
    · rintro ct ⟨value', hv', hm⟩
      rw [hv] at hv'; cases hv'
      exact k4 ct hm
    · intro ct mt hne
      exact k5 ct mt fun hver hm => hne hver ⟨value, hv, hm⟩

theorem firstNonEmpty_nested (a b c : String) (rest : List String) :
    firstNonEmpty (firstNonEmpty [a, b] :: c :: rest) = firstNonEmpty (a :: b :: c :: rest) := by
  simp only [firstNonEmpty]
  by_cases ha : a = ""
  · by_cases hb : b = "" <;> simp [ha, hb]
  · simp [ha]

/-- Everything that a successful reflection of a response unit establishes. -/
theorem reflectResponse_ok {v : Ver S} {env : Env S} {method : String} {cu : ContentUnit S} {r r' : RespState S}
    (h : reflectResponse v env method cu r = (r', .ok)) :
    (∃ dj dh, JSONDescription env method cu dj ∧ HeaderDescription cu dh ∧
      r'.resp.description = firstNonEmpty [r.resp.description, dj, dh]) ∧
    (cu.structure_ = none → r'.resp.headers = r.resp.headers) ∧
    (∀ value, cu.structure_ = some value →
      HeadersFrom v (topFields (value.headers (cu.fieldMapping "header")).events) r'.resp.headers) ∧
    (∀ value, RespondsJSON env method cu value → ∃ js sc, value.response.result = .ok js ∧ v.conv js = .ok sc ∧
      ((v.rawReplaces = true → ¬ HasRawTag cu (jsonContentType cu)) →
        ∃ mt, r'.resp.content.get? (jsonContentType cu) = some mt ∧ mt.schema = some (v.respSchema sc)) ∧
      ∀ n d, Event.defn n d ∈ value.response.events → (r'.schemas.get? n).isSome) ∧
    (¬ MethodIs method "head" → ∀ ct, HasRawTag cu ct ∨ (ct = cu.contentType ∧ ct ≠ "") →
      (r'.resp.content.get? ct).isSome) := by
  simp only [reflectResponse] at h
  split at h
  · rename_i hm
    split at h
    · rename_i r3 hj
      obtain ⟨-, hj⟩ := joinActs_ok hj
      obtain ⟨r1, h1, hj⟩ := foldActs_cons_ok hj
      obtain ⟨r2, h2, hj⟩ := foldActs_cons_ok hj
      cases foldActs_nil_ok hj
      simp only [id] at h1 h2
      split at h
      · rename_i r4 h4
        obtain ⟨b1, b2, ⟨dh, bdh, bd⟩, b4, b5⟩ := parseResponseHeader_ok h2
        obtain ⟨c1, c2, c3, c4, c5⟩ := rawBodies_ok h4
        have he : r'.schemas = r4.schemas ∧ r'.resp.headers = r4.resp.headers ∧
            r'.resp.description = r4.resp.description ∧
            (cu.contentType ≠ "" → (r'.resp.content.get? cu.contentType).isSome) ∧
            (∀ ct' mt, r4.resp.content.get? ct' = some mt → r'.resp.content.get? ct' = some mt) := by
          split at h
          · obtain ⟨d1, d2, d3, d4, d5⟩ := ensure_ok h
            exact ⟨d1, d2, d3, fun _ => d4, d5⟩
          · rename_i hc
            cases h
            exact ⟨rfl, rfl, rfl, fun hh => absurd hh hc, fun _ _ h => h⟩
        obtain ⟨e1, e2, e3, e4, e5⟩ := he
        have hraw : ∀ ct, HasRawTag cu ct ∨ (ct = cu.contentType ∧ ct ≠ "") → (r'.resp.content.get? ct).isSome := by
          rintro ct (hr | ⟨rfl, hne⟩)
          · obtain ⟨mt, hmt⟩ := Option.isSome_iff_exists.mp (c4 ct hr)
            rw [e5 ct mt hmt]; rfl
          · exact e4 hne
        rcases parseJSONResponse_ok h1 with ⟨hn, rfl⟩ | ⟨refl, js, sc, hr, hres, hc, f1, f2, f3, f4, f5⟩
        · rw [reflectJSON_none] at hn
          refine ⟨⟨"", dh, ⟨?_, fun _ => rfl⟩, bdh, ?_⟩, ?_, ?_, ?_, fun _ => hraw⟩
          · rintro value js ⟨-, hv, hno⟩; exact absurd (hn value hv) hno
          · rw [e3, c3, bd]
            simp only [firstNonEmpty]
            rfl
          · intro h0; rw [e2, c2, b4 h0]
          · intro value hv; rw [e2, c2]; exact b5 value hv
          · rintro value ⟨-, hv, hno⟩; exact absurd (hn value hv) hno
        · obtain ⟨value0, hv0, hno0, rfl⟩ := (reflectJSON_iff env cu refl).mp hr
          refine ⟨⟨js.description.getD "", dh, ⟨?_, ?_⟩, bdh, ?_⟩, ?_, ?_, ?_, fun _ => hraw⟩
          · rintro value js' ⟨-, hv, -⟩ hjs'
            rw [hv0] at hv; cases hv
            rw [hres] at hjs'; cases hjs'
            rfl
          · intro hall; exact absurd ⟨mt (upper_head method).mpr hm, hv0, hno0⟩ (hall value0)
          · rw [e3, c3, bd, f3, firstNonEmpty_nested]
          · intro h0; rw [hv0] at h0; cases h0
          · intro value hv; rw [e2, c2]; exact b5 value hv
          · rintro value ⟨-, hv, -⟩
            rw [hv0] at hv; cases hv
            refine ⟨js, sc, hres, hc, ?_, ?_⟩
            · intro hne
              refine ⟨jsonMedia v cu r.resp sc, ?_, rfl⟩
              refine e5 _ _ (c5 _ _ hne ?_)
              rw [b2, f1, GoMap.get?_set_self]
            · intro n d hmem
              rw [e1, c1, b1]
              exact f5 n d hmem
      · rename_i hne
        exact absurd h (hne _)
    · rename_i hne
      exact absurd h (hne _)
  · rename_i hm
    obtain ⟨b1, b2, ⟨dh, bdh, bd⟩, b4, b5⟩ := parseResponseHeader_ok h
    refine ⟨⟨"", dh, ⟨?_, fun _ => rfl⟩, bdh, ?_⟩, b4, b5, ?_, ?_⟩
    · rintro value js ⟨hm', -⟩; exact absurd (mt (upper_head method).mp hm') hm
    · rw [bd]; simp only [firstNonEmpty]; rfl
    · rintro value ⟨hm', -⟩; exact absurd (mt (upper_head method).mp hm') hm
    · intro hm'; exact absurd (mt (upper_head method).mp hm') hm

end Verif
