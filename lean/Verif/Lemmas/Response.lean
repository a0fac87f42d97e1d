import Verif.Lemmas.Reflect
import Verif.Lemmas.Http
import Verif.Lemmas.Method

/-!
# Everything response reflection can do, as single steps; and what success means
-/

namespace Verif
variable {S σ : Type}

/-- The response with another media type. -/
abbrev Response.put (r : Response S) (ct : String) (mt : MediaType S) : Response S :=
  { r with content := r.content.set ct mt }

/-- The media type of the JSON response: the one that is there, with the new schema. -/
abbrev jsonMedia (v : Ver S) (cu : ContentUnit S) (r : Response S) (sc : S) : MediaType S :=
  { (r.content.get? (jsonContentType cu)).getD {} with schema := some (v.respSchema sc) }

/-- One change made by reflecting a response unit. -/
inductive RespStep (v : Ver S) (env : Env S) (cu : ContentUnit S) : RespState S → RespState S → Prop
  | json {s : RespState S} {refl : Reflection S} {js : JS} {sc : S}
      (r : reflectJSONResponse env cu = some refl) (res : refl.result = .ok js) (conv : v.conv js = .ok sc) :
      RespStep v env cu s { s with resp := s.resp.put (jsonContentType cu) (jsonMedia v cu s.resp sc) }
  | ensure {s : RespState S} {ct : String} {sc : S}
      (why : HasRawTag cu ct ∨ (ct = cu.contentType ∧ ct ≠ "")) (fresh : s.resp.content.get? ct = none) :
      RespStep v env cu s { s with resp := s.resp.put ct { schema := some sc } }
  | replace {s : RespState S} {ct : String} {sc : S} (ver : v.rawReplaces = true) (why : HasRawTag cu ct) :
      RespStep v env cu s { s with resp := s.resp.put ct { schema := some sc } }
  | headers {s : RespState S} (hs : GoMap (HeaderOrRef S)) (inline : ∀ e ∈ hs, ∃ h, e.2 = { header := some h }) :
      RespStep v env cu s { s with resp := { s.resp with headers := hs } }
  | describe {s : RespState S} (d : String) (h : s.resp.description = "") :
      RespStep v env cu s { s with resp := { s.resp with description := d } }
  | newDef {s : RespState S} {n : String} {d : JS} {sc : S}
      (fresh : s.schemas.get? n = none) (conv : v.conv d = .ok sc) :
      RespStep v env cu s { s with schemas := s.schemas.set n sc }

section
variable (v : Ver S) (env : Env S) (cu : ContentUnit S)

theorem onRespDefinition_within (n : String) (d : JS) : Within (RespStep v env cu) (onRespDefinition v n d) := by
  intro s
  simp only [onRespDefinition, collectDefinition]
  split
  · exact .refl s
  · rename_i hn
    split
    · rename_i sc hc
      exact .one (.newDef hn hc)
    · exact .refl s

theorem describeFrom_steps (js : JS) (s : RespState S) :
    Star (RespStep v env cu) s { s with resp := describeFrom js s.resp } := by
  unfold describeFrom
  split
  · split
    · exact .one (.describe _ (by assumption))
    · exact .refl s
  · exact .refl s

theorem parseJSONResponse_within : Within (RespStep v env cu) (parseJSONResponse v env cu) := by
  intro s
  simp only [parseJSONResponse]
  split
  · exact .refl s
  · rename_i refl hr
    have he := runEvents_within (R := RespStep v env cu) env (onProp := fun _ s => (s, .ok))
      (onDef := onRespDefinition v) refl.events (fun _ _ s => .refl s)
      (fun n d _ => onRespDefinition_within v env cu n d) s
    split
    · rename_i s' h'
      rw [h'] at he
      split
      · exact he
      · rename_i js hjs
        split
        · exact he
        · exact he
        · rename_i sc hc
          exact (he.tail (.json hr hjs hc)).trans (describeFrom_steps v env cu js _)
    · exact he

omit cu in
theorem runHeaders_inline (es : List (Event S)) (m : GoMap (HeaderOrRef S))
    (hm : ∀ e ∈ m, ∃ h, e.2 = { header := some h }) :
    ∀ e ∈ (runEvents env (onHeader v) (fun _ _ s => (s, .ok)) es m).1, ∃ h, e.2 = { header := some h } := by
  induction es generalizing m with
  | nil => exact hm
  | cons ev es ih =>
    cases ev with
    | defn n d => simp only [runEvents]; exact ih m hm
    | prop c =>
      have hp : ∀ e ∈ (onHeader v c m).1, ∃ h, e.2 = { header := some h } := by
        simp only [onHeader]
        repeat' split
        all_goals first
          | exact hm
          | skip
        intro e he
        rcases GoMap.mem_set he with rfl | he
        · exact ⟨_, rfl⟩
        · exact hm e he
      simp only [runEvents]
      split
      · rename_i s' h; rw [h] at hp; exact ih _ hp
      · rename_i s' x h; rw [h] at hp; exact hp
      · rename_i s' h; rw [h] at hp; exact hp

theorem parseResponseHeader_within : Within (RespStep v env cu) (parseResponseHeader v env cu) := by
  intro s
  simp only [parseResponseHeader]
  split
  · exact .refl s
  · rename_i value _
    split
    · rename_i res hres
      split
      · exact .refl s
      · rename_i js _
        have h := describeFrom_steps v env cu js { s with resp := { s.resp with headers := res } }
        refine (Star.one (.headers res ?_)).trans h
        have := runHeaders_inline v env (value.headers (cu.fieldMapping "header")).events [] (by simp)
        rw [hres] at this
        exact this
    · exact .refl s

theorem describeFrom_content (js : JS) (r : Response S) : (describeFrom js r).content = r.content := by
  unfold describeFrom
  repeat' split
  all_goals rfl

theorem describeFrom_headers (js : JS) (r : Response S) : (describeFrom js r).headers = r.headers := by
  unfold describeFrom
  repeat' split
  all_goals rfl

/-- Reflecting headers leaves content and component schemas alone. -/
theorem parseResponseHeader_frame (s : RespState S) :
    (parseResponseHeader v env cu s).1.resp.content = s.resp.content ∧
    (parseResponseHeader v env cu s).1.schemas = s.schemas := by
  simp only [parseResponseHeader]
  split
  · exact ⟨rfl, rfl⟩
  · split
    · split
      · exact ⟨rfl, rfl⟩
      · exact ⟨describeFrom_content _ _, rfl⟩
    · exact ⟨rfl, rfl⟩

theorem ensureResponseContentType_within {ct : String} (format : String)
    (why : HasRawTag cu ct ∨ (ct = cu.contentType ∧ ct ≠ "")) :
    Within (RespStep v env cu) (ensureResponseContentType v ct format) := by
  intro s
  simp only [ensureResponseContentType]
  split
  · exact .refl s
  · rename_i hf
    split
    · exact .one (.ensure why hf)
    · exact .refl s

theorem rawResponseTag_within {ct : String} (why : HasRawTag cu ct) :
    Within (RespStep v env cu) (rawResponseTag v ct) := by
  intro s
  simp only [rawResponseTag]
  split
  · rename_i hv
    split
    · exact .one (.replace hv why)
    · exact .refl s
  · exact ensureResponseContentType_within v env cu "" (.inl why) s

theorem parseRawResponseBody_within : Within (RespStep v env cu) (parseRawResponseBody v cu) := by
  intro s
  simp only [parseRawResponseBody]
  split
  · exact .refl s
  · rename_i value hv
    exact foldActs_within _ _ (fun tag ht => rawResponseTag_within v env cu ⟨value, hv, ht⟩) s

theorem reflectResponse_within (method : String) : Within (RespStep v env cu) (reflectResponse v env method cu) := by
  intro s
  simp only [reflectResponse]
  split
  · have hj := joinActs_within (R := RespStep v env cu)
      (as := [parseJSONResponse v env cu, parseResponseHeader v env cu])
      (by
        intro a ha
        simp only [List.mem_cons, List.not_mem_nil, or_false] at ha
        rcases ha with rfl | rfl
        · exact parseJSONResponse_within v env cu
        · exact parseResponseHeader_within v env cu) [] s
    split
    · rename_i s' h'
      rw [h'] at hj
      have hr := parseRawResponseBody_within v env cu s'
      split
      · rename_i s'' h''
        rw [h''] at hr
        split
        · rename_i hc
          exact hj.trans (hr.trans (ensureResponseContentType_within v env cu cu.format (.inr ⟨rfl, hc⟩) s''))
        · exact hj.trans hr
      · exact hj.trans hr
    · exact hj
  · exact parseResponseHeader_within v env cu s

end

/-! ## Success -/

theorem joinActs_ok {as : List (Act σ)} {errs : List (Option String)} {s s' : σ}
    (h : joinActs as errs s = (s', .ok)) : (∀ e ∈ errs, e = none) ∧ foldActs id as s = (s', .ok) := by
  induction as generalizing errs s with
  | nil =>
    simp only [joinActs] at h
    split at h
    · cases h
    · rename_i hj
      cases h
      exact ⟨(joinErrors_none_iff errs).mp hj, rfl⟩
  | cons a as ih =>
    simp only [joinActs] at h
    split at h
    · rename_i s1 h1
      obtain ⟨e1, e2⟩ := ih h
      refine ⟨fun e he => e1 e (by simp [he]), ?_⟩
      simp only [foldActs, id, h1]
      exact e2
    · rename_i s1 e' h1
      obtain ⟨e1, -⟩ := ih h
      exact absurd (e1 (some e') (by simp)) (by simp)
    · cases h

theorem ok_joinActs {as : List (Act σ)} {errs : List (Option String)} {s s' : σ}
    (he : ∀ e ∈ errs, e = none) (h : foldActs id as s = (s', .ok)) : joinActs as errs s = (s', .ok) := by
  induction as generalizing errs s with
  | nil =>
    cases h
    simp only [joinActs, (joinErrors_none_iff errs).mpr he]
  | cons a as ih =>
    simp only [foldActs, id] at h
    simp only [joinActs]
    split at h
    · rename_i s1 h1
      simp only [h1]
      refine ih ?_ h
      intro e hm
      simp only [List.mem_append, List.mem_singleton] at hm
      rcases hm with hm | rfl
      · exact he e hm
      · rfl
    · rename_i hne
      exact absurd h (hne _)

theorem foldActs_cons_ok {α : Type} {f : α → Act σ} {x : α} {xs : List α} {s s' : σ}
    (h : foldActs f (x :: xs) s = (s', .ok)) : ∃ s1, f x s = (s1, .ok) ∧ foldActs f xs s1 = (s', .ok) := by
  simp only [foldActs] at h
  split at h
  · rename_i s1 h1
    exact ⟨s1, h1, h⟩
  · rename_i hne
    exact absurd h (hne _)

theorem foldActs_nil_ok {α : Type} {f : α → Act σ} {s s' : σ} (h : foldActs f [] s = (s', .ok)) : s' = s := by
  cases h; rfl

end Verif
