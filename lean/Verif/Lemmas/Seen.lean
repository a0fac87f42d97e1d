import Verif.Spec.Seen
import Verif.Lemmas.Response

/-! Lemmas on what callbacks see. -/

namespace Verif
variable {S : Type}

/-! ## Forgetting the log -/

/-- Without its log, the first does what the second does. -/
def Forgets {σ : Type} (a' : Act (σ × Watch S)) (a : Act σ) : Prop :=
  ∀ s w, ((a' (s, w)).1.1, (a' (s, w)).2) = a s

theorem forgets_watching {σ : Type} (f : Watch S → Watch S) (a : Act σ) : Forgets (watching f a) a := by
  intro s w; rfl

theorem forgets_cases {σ : Type} {a' : Act (σ × Watch S)} {a : Act σ} (h : Forgets a' a) (s : σ) (w : Watch S) :
    ∃ w', a' (s, w) = (((a s).1, w'), (a s).2) := by
  have := h s w
  rw [← this]
  exact ⟨(a' (s, w)).1.2, rfl⟩

/-- The same for lists of steps. -/
inductive AllForget {σ : Type} : List (Act (σ × Watch S)) → List (Act σ) → Prop
  | nil : AllForget [] []
  | cons {a' a as' as} : Forgets a' a → AllForget as' as → AllForget (a' :: as') (a :: as)

theorem forgets_join {σ : Type} {as' : List (Act (σ × Watch S))} {as : List (Act σ)}
    (h : AllForget as' as) (errs : List (Option String)) : Forgets (joinActs as' errs) (joinActs as errs) := by
  induction h generalizing errs with
  | nil => intro s w; simp only [joinActs]; cases joinErrors errs <;> rfl
  | @cons a' a as' as h hs ih =>
    intro s w
    obtain ⟨w', e⟩ := forgets_cases h s w
    simp only [joinActs, e]
    rcases ha : a s with ⟨s1, out⟩
    cases out with
    | ok => exact ih _ s1 w'
    | err x => exact ih _ s1 w'
    | panic => rfl

theorem forgets_events {σ : Type} {env : Env S} {p' : PropCall S → Act (σ × Watch S)} {p : PropCall S → Act σ}
    {d' : String → JS → Act (σ × Watch S)} {d : String → JS → Act σ} (hp : ∀ c, Forgets (p' c) (p c))
    (hd : ∀ n x, Forgets (d' n x) (d n x)) (es : List (Event S)) :
    Forgets (runEvents env p' d' es) (runEvents env p d es) := by
  induction es with
  | nil => intro s w; rfl
  | cons e es ih =>
    intro s w
    cases e with
    | prop c =>
      obtain ⟨w', e⟩ := forgets_cases (hp c) s w
      simp only [runEvents, e]
      rcases p c s with ⟨s1, out⟩
      cases out with
      | ok => exact ih s1 w'
      | err x => rfl
      | panic => rfl
    | defn n x =>
      obtain ⟨w', e⟩ := forgets_cases (hd n x) s w
      simp only [runEvents, e]
      rcases d n x s with ⟨s1, out⟩
      cases out with
      | ok => exact ih s1 w'
      | err x => rfl
      | panic => rfl

theorem forgets_paramsIn (v : Ver S) (env : Env S) (cu : ContentUnit S) (inn : String) :
    Forgets (parseParametersInW v env cu inn) (parseParametersIn v env cu inn) := by
  intro s w
  simp only [parseParametersInW, parseParametersIn, input_eq]
  split
  · rfl
  · obtain ⟨w', e⟩ := forgets_cases (forgets_events (env := env)
      (p' := fun c => watching (fieldCalls v cu inn c) (onParameter v inn c)) (p := onParameter v inn)
      (d' := fun n d => watching (Watch.see cu (.params inn)) (onReqDefinition v n d)) (d := onReqDefinition v)
      (fun c => forgets_watching _ _) (fun n x => forgets_watching _ _)
      ((cu.value env).params inn (cu.fieldMapping inn)).events) s ((w.enter false inn).see cu (.params inn))
    rw [e]
    rcases runEvents env (onParameter v inn) (onReqDefinition v)
      ((cu.value env).params inn (cu.fieldMapping inn)).events s with ⟨s1, out⟩
    cases out with
    | ok =>
      simp only
      cases ((cu.value env).params inn (cu.fieldMapping inn)).result with
      | error x => rfl
      | ok js => simp only; split <;> rfl
    | err x => rfl
    | panic => rfl

theorem forgets_params (v : Ver S) (env : Env S) (cu : ContentUnit S) :
    Forgets (parseParametersW v env cu) (parseParameters v env cu) :=
  forgets_join (.cons (forgets_paramsIn v env cu _) (.cons (forgets_paramsIn v env cu _)
    (.cons (forgets_paramsIn v env cu _) (.cons (forgets_paramsIn v env cu _) .nil)))) []

theorem forgets_unit (v : Ver S) (env : Env S) (method : String) (cu : ContentUnit S) :
    Forgets (reflectUnitW v env method cu) (reflectUnit v env method cu) := by
  intro s w
  simp only [reflectUnitW, reflectUnit]
  split
  · obtain ⟨w', e⟩ := forgets_cases (forgets_join
      (.cons (forgets_watching (bodyCalls env cu method (cu.fieldMapping "formData") "formData" ["form"] .form)
          (parseRequestBody v env cu method "application/x-www-form-urlencoded" (cu.fieldMapping "formData") "formData"
            ["form"]))
        (.cons (forgets_params v env cu)
          (.cons (forgets_watching (bodyCalls env cu method [] "json" [] .json)
            (parseRequestBody v env cu method "application/json" [] "json" [])) .nil))) []) s w
    simp only [parseRequestBodyW, e]
    rcases joinActs [parseRequestBody v env cu method "application/x-www-form-urlencoded" (cu.fieldMapping "formData")
      "formData" ["form"], parseParameters v env cu, parseRequestBody v env cu method "application/json" [] "json" []]
      [] s with ⟨s1, out⟩
    cases out <;> rfl
  · split
    · exact forgets_join (.cons (forgets_params v env cu) (.cons (forgets_watching _ _) .nil)) [] s w
    · split
      · exact forgets_join (.cons (forgets_watching _ _) (.cons (forgets_params v env cu) .nil)) [] s w
      · rfl

theorem forgets_request (v : Ver S) (env : Env S) (method : String) (cus : List (ContentUnit S)) :
    Forgets (setupRequestW v env method cus) (setupRequest v env method cus) := by
  induction cus with
  | nil => intro s w; rfl
  | cons cu cus ih =>
    intro s w
    obtain ⟨w', e⟩ := forgets_cases (forgets_unit v env method cu) s w
    simp only [setupRequestW, setupRequest, e]
    rcases reflectUnit v env method cu s with ⟨s1, out⟩
    cases out with
    | ok => exact ih _ w'
    | err x => rfl
    | panic => rfl

theorem forgets_jsonResponse (v : Ver S) (env : Env S) (cu : ContentUnit S) :
    Forgets (parseJSONResponseW v env cu) (parseJSONResponse v env cu) := by
  intro s w
  simp only [parseJSONResponseW, parseJSONResponse]
  cases reflectJSONResponse env cu with
  | none => rfl
  | some refl =>
    obtain ⟨w', e⟩ := forgets_cases (forgets_events (env := env)
      (p' := fun _ => watching (Watch.see cu .response) (fun s => (s, .ok))) (p := fun _ s => (s, .ok))
      (d' := fun n d => watching (Watch.see cu .response) (onRespDefinition v n d)) (d := onRespDefinition v)
      (fun c => forgets_watching _ _) (fun n x => forgets_watching _ _) refl.events) s
      (((if cu.structure_.isSome then w.blind cu .check else w).enter true "body").see cu .response)
    simp only [e]
    rcases runEvents env (fun _ s => (s, .ok)) (onRespDefinition v) refl.events s with ⟨s1, out⟩
    cases out with
    | ok =>
      simp only
      cases refl.result with
      | error x => rfl
      | ok js => simp only; cases v.conv js <;> rfl
    | err x => rfl
    | panic => rfl

theorem forgets_header (v : Ver S) (env : Env S) (cu : ContentUnit S) :
    Forgets (parseResponseHeaderW v env cu) (parseResponseHeader v env cu) := by
  intro s w
  simp only [parseResponseHeaderW, parseResponseHeader]
  cases cu.structure_ with
  | none => rfl
  | some value =>
    obtain ⟨w', e⟩ := forgets_cases (forgets_events (env := env)
      (p' := fun c => watching (Watch.see cu .header) (onHeader v c)) (p := onHeader v)
      (d' := fun _ _ => watching (Watch.see cu .header) (fun s => (s, .ok))) (d := fun _ _ s => (s, .ok))
      (fun c => forgets_watching _ _) (fun n x => forgets_watching _ _)
      (value.headers (cu.fieldMapping "header")).events) [] ((w.enter true "header").see cu .header)
    simp only [e]
    rcases runEvents env (onHeader v) (fun _ _ s => (s, .ok)) (value.headers (cu.fieldMapping "header")).events []
      with ⟨s1, out⟩
    cases out with
    | ok =>
      simp only
      cases (value.headers (cu.fieldMapping "header")).result <;> rfl
    | err x => rfl
    | panic => rfl

theorem forgets_response1 (v : Ver S) (env : Env S) (method : String) (cu : ContentUnit S) :
    Forgets (reflectResponseW v env method cu) (reflectResponse v env method cu) := by
  intro s w
  simp only [reflectResponseW, reflectResponse]
  split
  · obtain ⟨w', e⟩ := forgets_cases (forgets_join (.cons (forgets_jsonResponse v env cu)
      (.cons (forgets_header v env cu) .nil)) []) s w
    rw [e]
    rcases joinActs [parseJSONResponse v env cu, parseResponseHeader v env cu] [] s with ⟨s1, out⟩
    cases out with
    | ok =>
      simp only [watching]
      rcases parseRawResponseBody v cu s1 with ⟨s2, out⟩
      cases out with
      | ok => simp only; split <;> rfl
      | err x => rfl
      | panic => rfl
    | err x => rfl
    | panic => rfl
  · exact forgets_header v env cu s w

theorem forgets_response (v : Ver S) (env : Env S) (method : String) (cus : List (ContentUnit S)) :
    Forgets (setupResponseW v env method cus) (setupResponse v env method cus) := by
  induction cus with
  | nil => intro s w; rfl
  | cons cu cus ih =>
    intro s w
    obtain ⟨w', e⟩ := forgets_cases (forgets_response1 v env method (normaliseUnit cu))
      ⟨s.schemas, ((respSlot (normaliseUnit cu) s.op).bind (·.response)).getD {}⟩ w
    simp only [setupResponseW, setupResponse, e]
    rcases reflectResponse v env method (normaliseUnit cu)
      ⟨s.schemas, ((respSlot (normaliseUnit cu) s.op).bind (·.response)).getD {}⟩ with ⟨s1, out⟩
    cases out with
    | ok => exact ih _ w'
    | err x => rfl
    | panic => rfl

theorem forgets_setup (v : Ver S) (env : Env S) (oc : OpCtx S) : Forgets (setupOCW v env oc) (setupOC v env oc) := by
  intro s w
  obtain ⟨w', e⟩ := forgets_cases (forgets_request v env oc.method oc.req) s w
  simp only [setupOCW, setupOC, e]
  rcases setupRequest v env oc.method oc.req s with ⟨s1, out⟩
  cases out with
  | err x => rfl
  | panic => rfl
  | ok =>
    simp only
    cases validatePathParams s1.op.parameters oc.pathParams with
    | some x => rfl
    | none =>
      obtain ⟨w', e⟩ := forgets_cases (forgets_response v env oc.method oc.resp) s1 w'
      simp only [e]
      rcases setupResponse v env oc.method oc.resp s1 with ⟨s1, out⟩
      cases out <;> rfl

/-! ## What is seen -/

/-- The step adds to the log, and only what the predicate allows. -/
def Logs {σ : Type} (Q : Seen S → Prop) (a : Act (σ × Watch S)) : Prop :=
  ∀ s w, ∃ l, (a (s, w)).1.2.seen = w.seen ++ l ∧ ∀ x ∈ l, Q x

/-- Also, the content of the context is `p` before and after. -/
def LogsAt {σ : Type} (p : Progress) (Q : Seen S → Prop) (a : Act (σ × Watch S)) : Prop :=
  ∀ s w, w.progress = p → (a (s, w)).1.2.progress = p ∧ ∃ l, (a (s, w)).1.2.seen = w.seen ++ l ∧ ∀ x ∈ l, Q x

/-- For changes of the log alone. -/
def Adds (p : Progress) (Q : Seen S → Prop) (f : Watch S → Watch S) : Prop :=
  ∀ w, w.progress = p → (f w).progress = p ∧ ∃ l, (f w).seen = w.seen ++ l ∧ ∀ x ∈ l, Q x

theorem adds_see {p : Progress} {Q : Seen S → Prop} {cu : ContentUnit S} {t : Task} (h : Q ⟨cu, t, some p⟩) :
    Adds p Q (Watch.see cu t) := by
  intro w hw
  exact ⟨hw, _, rfl, by simp [hw, h]⟩

theorem adds_comp {p : Progress} {Q : Seen S → Prop} {f g : Watch S → Watch S} (hf : Adds p Q f) (hg : Adds p Q g) :
    Adds p Q (fun w => g (f w)) := by
  intro w hw
  obtain ⟨hp, l, e, hl⟩ := hf w hw
  obtain ⟨hp', l', e', hl'⟩ := hg (f w) hp
  refine ⟨hp', l ++ l', by simp [e', e], ?_⟩
  intro x hx
  rcases List.mem_append.mp hx with hx | hx
  · exact hl x hx
  · exact hl' x hx

theorem adds_seeAll {A : Type} {p : Progress} {Q : Seen S → Prop} {cu : ContentUnit S} {t : Task}
    (h : Q ⟨cu, t, some p⟩) (l : List A) : Adds p Q (Watch.seeAll cu t l) := by
  induction l with
  | nil => intro w hw; exact ⟨hw, [], by simp [Watch.seeAll], by simp⟩
  | cons a l ih => exact adds_comp (f := Watch.see cu t) (g := Watch.seeAll cu t l) (adds_see h) ih

theorem logsAt_watching {σ : Type} {p : Progress} {Q : Seen S → Prop} {f : Watch S → Watch S} (hf : Adds p Q f)
    (a : Act σ) : LogsAt p Q (watching f a) := fun _ w hw => hf w hw

theorem logsAt_events {σ : Type} {p : Progress} {Q : Seen S → Prop} {env : Env S}
    {onP : PropCall S → Act (σ × Watch S)} {onD : String → JS → Act (σ × Watch S)} (hd : ∀ n x, LogsAt p Q (onD n x))
    (es : List (Event S)) (hp : ∀ c, Event.prop c ∈ es → LogsAt p Q (onP c)) : LogsAt p Q (runEvents env onP onD es) := by
  have step : ∀ (a : Act (σ × Watch S)), LogsAt p Q a → ∀ (es : List (Event S)), LogsAt p Q (runEvents env onP onD es) →
      ∀ s w, w.progress = p → ∀ r : (σ × Watch S) × Out,
      (∀ s1, a (s, w) = (s1, .ok) → r = runEvents env onP onD es s1) →
      (∀ s1 e, a (s, w) = (s1, .err e) → r = (s1, .err (env.wrap e))) →
      (∀ s1, a (s, w) = (s1, .panic) → r = (s1, .panic)) →
      r.1.2.progress = p ∧ ∃ l, r.1.2.seen = w.seen ++ l ∧ ∀ x ∈ l, Q x := by
    intro a ha es ih s w hw r h1 h2 h3
    obtain ⟨hp1, l, e, hl⟩ := ha s w hw
    rcases hs : a (s, w) with ⟨⟨s1, w1⟩, out⟩
    rw [hs] at hp1 e
    cases out with
    | ok =>
      rw [h1 _ hs]
      obtain ⟨hp2, l', e', hl'⟩ := ih s1 w1 hp1
      refine ⟨hp2, l ++ l', ?_, ?_⟩
      · rw [e', show w1.seen = _ from e, List.append_assoc]
      · intro x hx
        rcases List.mem_append.mp hx with hx | hx
        · exact hl x hx
        · exact hl' x hx
    | err x => rw [h2 _ _ hs]; exact ⟨hp1, l, e, hl⟩
    | panic => rw [h3 _ hs]; exact ⟨hp1, l, e, hl⟩
  induction es with
  | nil => intro s w hw; exact ⟨hw, [], by simp [runEvents], by simp⟩
  | cons e es ih =>
    cases e with
    | prop c =>
      intro s w hw
      exact step (onP c) (hp c (by simp)) es (ih fun c hc => hp c (by simp [hc])) s w hw _ (fun _ h => by simp only [runEvents, h])
        (fun _ _ h => by simp only [runEvents, h]) (fun _ h => by simp only [runEvents, h])
    | defn n x =>
      intro s w hw
      exact step (onD n x) (hd n x) es (ih fun c hc => hp c (by simp [hc])) s w hw _ (fun _ h => by simp only [runEvents, h])
        (fun _ _ h => by simp only [runEvents, h]) (fun _ h => by simp only [runEvents, h])

theorem logs_join {σ : Type} {Q : Seen S → Prop} {as : List (Act (σ × Watch S))} (h : ∀ a ∈ as, Logs Q a)
    (errs : List (Option String)) : Logs Q (joinActs as errs) := by
  induction as generalizing errs with
  | nil =>
    intro s w
    refine ⟨[], ?_, by simp⟩
    simp only [joinActs]
    cases joinErrors errs <;> simp
  | cons a as ih =>
    intro s w
    obtain ⟨l, e, hl⟩ := h a (by simp) s w
    simp only [joinActs]
    rcases hs : a (s, w) with ⟨⟨s1, w1⟩, out⟩
    rw [hs] at e
    have go : ∀ errs, ∃ l, (joinActs as errs (s1, w1)).1.2.seen = w.seen ++ l ∧ ∀ x ∈ l, Q x := by
      intro errs
      obtain ⟨l', e', hl'⟩ := ih (fun a ha => h a (by simp [ha])) errs s1 w1
      refine ⟨l ++ l', ?_, ?_⟩
      · rw [e', show w1.seen = _ from e, List.append_assoc]
      · intro x hx
        rcases List.mem_append.mp hx with hx | hx
        · exact hl x hx
        · exact hl' x hx
    cases out with
    | ok => exact go _
    | err x => exact go _
    | panic => exact ⟨l, e, hl⟩

theorem mem_paramsOf {env : Env S} {cu : ContentUnit S} {inn : String} {c : PropCall S} :
    c ∈ paramsOf env cu inn ↔ (cu.value env).isSliceOrMap = false ∧
      Event.prop c ∈ ((cu.value env).params inn (cu.fieldMapping inn)).events ∧ c.processed = true ∧ c.pathLen ≤ 1 := by
  unfold paramsOf
  split
  · rename_i h
    simp only [h, true_and, List.mem_filterMap]
    constructor
    · rintro ⟨e, he, h⟩
      split at h
      · split at h
        · rename_i hc
          cases h
          exact ⟨he, hc⟩
        · cases h
      · cases h
    · rintro ⟨h1, h2⟩
      exact ⟨_, h1, by simp [h2]⟩
  · rename_i h
    simp [h]

/-- What may be logged for a unit of a request. -/
def ReqSeen (env : Env S) (cu : ContentUnit S) (x : Seen S) : Prop :=
  x.unit = cu ∧ x.task.OfRequest ∧ x.ctx = x.task.sees ∧ ∀ inn, x.task = .field inn → ∃ c, c ∈ paramsOf env cu inn

/-- What may be logged for a unit of a response. -/
def RespSeen (cu : ContentUnit S) (x : Seen S) : Prop := x.unit = cu ∧ x.task.OfResponse ∧ x.ctx = x.task.sees

theorem logs_body (v : Ver S) (env : Env S) (cu : ContentUnit S) (method mime : String) (mapping : GoMap String)
    (tag : String) (tags : List String) (t : Task) (ht : t = .form ∨ t = .json) :
    Logs (ReqSeen env cu) (parseRequestBodyW v env cu method mime mapping tag tags t) := by
  intro s w
  show ∃ l, (bodyCalls env cu method mapping tag tags t w).seen = w.seen ++ l ∧ _
  have q : ReqSeen env cu ⟨cu, t, some ⟨false, "body"⟩⟩ := by
    rcases ht with rfl | rfl
    · exact ⟨rfl, .inr (.inl rfl), rfl, nofun⟩
    · exact ⟨rfl, .inr (.inr (.inl rfl)), rfl, nofun⟩
  have qp : ReqSeen env cu (⟨cu, .probe, none⟩ : Seen S) := ⟨rfl, .inl rfl, rfl, nofun⟩
  have nothing : ∃ l, w.seen = w.seen ++ l ∧ ∀ x ∈ l, ReqSeen env cu x := ⟨[], by simp, by simp⟩
  have only : ∃ l, (w.blind cu .probe).seen = w.seen ++ l ∧ ∀ x ∈ l, ReqSeen env cu x :=
    ⟨_, rfl, by simpa using qp⟩
  simp only [bodyCalls, input_eq]
  split
  · exact nothing
  · split
    · exact nothing
    · split
      · exact nothing
      · cases env.processWithoutTags with
        | error e => exact only
        | ok b =>
          simp only
          split
          · exact only
          · obtain ⟨_, l, e, hl⟩ := adds_comp (adds_see q) (adds_seeAll q ((cu.value env).body tag mapping).visited)
              ((w.blind cu .probe).enter false "body") rfl
            refine ⟨⟨cu, .probe, none⟩ :: l, ?_, ?_⟩
            · rw [e]; simp [Watch.enter, Watch.blind]
            · intro x hx
              rcases List.mem_cons.mp hx with rfl | hx
              · exact qp
              · exact hl x hx

theorem reqSeen_params {env : Env S} {cu : ContentUnit S} {inn : String} (h : inn ∈ ["query", "path", "cookie", "header"]) :
    ReqSeen env cu ⟨cu, .params inn, some ⟨false, inn⟩⟩ :=
  ⟨rfl, .inr (.inr (.inr ⟨inn, h, .inl rfl⟩)), rfl, nofun⟩

theorem reqSeen_field {env : Env S} {cu : ContentUnit S} {inn : String} (h : inn ∈ ["query", "path", "cookie", "header"])
    {c : PropCall S} (hc : c ∈ paramsOf env cu inn) :
    ReqSeen env cu ⟨cu, .field inn, some ⟨false, inn⟩⟩ :=
  ⟨rfl, .inr (.inr (.inr ⟨inn, h, .inr rfl⟩)), rfl, fun inn' e => by cases e; exact ⟨c, hc⟩⟩

theorem adds_field (v : Ver S) {env : Env S} {cu : ContentUnit S} {inn : String} (h : inn ∈ ["query", "path", "cookie", "header"])
    (c : PropCall S) (hc : Event.prop c ∈ ((cu.value env).params inn (cu.fieldMapping inn)).events)
    (hm : (cu.value env).isSliceOrMap = false) : Adds ⟨false, inn⟩ (ReqSeen env cu) (fieldCalls v cu inn c) := by
  have see : Adds ⟨false, inn⟩ (ReqSeen env cu) (Watch.see cu (.params inn)) := adds_see (reqSeen_params h)
  intro w hw
  simp only [fieldCalls]
  split
  · exact see w hw
  · rename_i ht
    have hc' : c ∈ paramsOf env cu inn := mem_paramsOf.2 ⟨hm, hc, by simpa using ht⟩
    cases v.conv c.schema with
    | ok s =>
      have enter : Adds ⟨false, inn⟩ (ReqSeen env cu) (Watch.enter false inn) := by
        intro w hw; exact ⟨rfl, [], by simp [Watch.enter], by simp⟩
      exact adds_comp (adds_comp (adds_comp see enter) (adds_see (reqSeen_field h hc')))
        (adds_seeAll (reqSeen_field h hc') c.inner.1) w hw
    | err e => exact see w hw
    | panic => exact see w hw

/-- What parameters of a location log: a callback, then more. -/
theorem logs_paramsIn (v : Ver S) (env : Env S) (cu : ContentUnit S) (inn : String)
    (h : inn ∈ ["query", "path", "cookie", "header"]) (s : ReqState S) (w : Watch S) :
    ∃ l, (parseParametersInW v env cu inn (s, w)).1.2.seen = w.seen ++ l ∧ (∀ x ∈ l, ReqSeen env cu x) ∧
      ((cu.value env).isSliceOrMap = false → ⟨cu, .params inn, some ⟨false, inn⟩⟩ ∈ l) := by
  simp only [parseParametersInW, input_eq]
  split
  · rename_i hm
    exact ⟨[], by simp, by simp, by simp [hm]⟩
  · rename_i hm
    obtain ⟨_, l, e, hl⟩ := logsAt_events (p := ⟨false, inn⟩) (Q := ReqSeen env cu) (env := env)
      (onP := fun c => watching (fieldCalls v cu inn c) (onParameter v inn c))
      (onD := fun n d => watching (Watch.see cu (.params inn)) (onReqDefinition v n d))
      (fun n d => logsAt_watching (adds_see (reqSeen_params h)) _)
      ((cu.value env).params inn (cu.fieldMapping inn)).events
      (fun c hc => logsAt_watching (adds_field v h c hc (by simpa using hm)) _) s ((w.enter false inn).see cu (.params inn)) rfl
    rcases hr : runEvents env (fun c => watching (fieldCalls v cu inn c) (onParameter v inn c))
      (fun n d => watching (Watch.see cu (.params inn)) (onReqDefinition v n d))
      ((cu.value env).params inn (cu.fieldMapping inn)).events (s, (w.enter false inn).see cu (.params inn)) with ⟨⟨s1, w1⟩, out⟩
    rw [hr] at e
    have fin : ∃ l, w1.seen = w.seen ++ l ∧ (∀ x ∈ l, ReqSeen env cu x) ∧
        ((cu.value env).isSliceOrMap = false → ⟨cu, .params inn, some ⟨false, inn⟩⟩ ∈ l) := by
      refine ⟨⟨cu, .params inn, some ⟨false, inn⟩⟩ :: l, ?_, ?_, by simp⟩
      · rw [show w1.seen = _ from e]; simp [Watch.enter, Watch.see]
      · intro x hx
        rcases List.mem_cons.mp hx with rfl | hx
        · exact reqSeen_params h
        · exact hl x hx
    cases out with
    | ok =>
      simp only
      cases ((cu.value env).params inn (cu.fieldMapping inn)).result with
      | error x => exact fin
      | ok js => simp only; split <;> exact fin
    | err x => exact fin
    | panic => exact fin

theorem logs_paramsIn' (v : Ver S) (env : Env S) (cu : ContentUnit S) (inn : String)
    (h : inn ∈ ["query", "path", "cookie", "header"]) : Logs (ReqSeen env cu) (parseParametersInW v env cu inn) := by
  intro s w
  obtain ⟨l, e, hl, _⟩ := logs_paramsIn v env cu inn h s w
  exact ⟨l, e, hl⟩

theorem logs_params (v : Ver S) (env : Env S) (cu : ContentUnit S) : Logs (ReqSeen env cu) (parseParametersW v env cu) := by
  refine logs_join ?_ []
  intro a ha
  simp only [List.mem_cons, List.not_mem_nil, or_false] at ha
  rcases ha with rfl | rfl | rfl | rfl <;> exact logs_paramsIn' v env cu _ (by simp)

theorem logs_nothing {σ : Type} {Q : Seen S → Prop} (a : Act σ) : Logs Q (watching id a) :=
  fun _ w => ⟨[], by simp [watching], by simp⟩

theorem logs_unit (v : Ver S) (env : Env S) (method : String) (cu : ContentUnit S) :
    Logs (ReqSeen env cu) (reflectUnitW v env method cu) := by
  intro s w
  have b1 := logs_body v env cu method "application/x-www-form-urlencoded" (cu.fieldMapping "formData") "formData"
    ["form"] .form (.inl rfl)
  have b2 := logs_body v env cu method "application/json" [] "json" [] .json (.inr rfl)
  have pa := logs_params v env cu
  simp only [reflectUnitW]
  split
  · obtain ⟨l, e, hl⟩ := logs_join (Q := ReqSeen env cu) (as := [_, _, _]) (by
      intro a ha
      simp only [List.mem_cons, List.not_mem_nil, or_false] at ha
      rcases ha with rfl | rfl | rfl
      · exact b1
      · exact pa
      · exact b2) [] s w
    rcases hr : joinActs [parseRequestBodyW v env cu method "application/x-www-form-urlencoded"
      (cu.fieldMapping "formData") "formData" ["form"] .form, parseParametersW v env cu,
      parseRequestBodyW v env cu method "application/json" [] "json" [] .json] [] (s, w) with ⟨⟨s1, w1⟩, out⟩
    rw [hr] at e
    cases out with
    | ok => exact ⟨l, e, hl⟩
    | err x => exact ⟨l, e, hl⟩
    | panic => exact ⟨l, e, hl⟩
  · split
    · refine logs_join ?_ [] s w
      intro a ha
      simp only [List.mem_cons, List.not_mem_nil, or_false] at ha
      rcases ha with rfl | rfl
      · exact pa
      · exact b2
    · split
      · refine logs_join ?_ [] s w
        intro a ha
        simp only [List.mem_cons, List.not_mem_nil, or_false] at ha
        rcases ha with rfl | rfl
        · exact b1
        · exact pa
      · exact logs_nothing _ s w

theorem logs_request (v : Ver S) (env : Env S) (method : String) (cus : List (ContentUnit S)) :
    Logs (fun x => ∃ cu ∈ cus, ReqSeen env cu x) (setupRequestW v env method cus) := by
  induction cus with
  | nil => intro s w; exact ⟨[], by simp [setupRequestW], by simp⟩
  | cons cu cus ih =>
    intro s w
    obtain ⟨l, e, hl⟩ := logs_unit v env method cu s w
    simp only [setupRequestW]
    rcases hr : reflectUnitW v env method cu (s, w) with ⟨⟨s1, w1⟩, out⟩
    rw [hr] at e
    have here : ∀ x ∈ l, ∃ c ∈ cu :: cus, ReqSeen env c x := fun x hx => ⟨cu, by simp, hl x hx⟩
    cases out with
    | ok =>
      obtain ⟨l', e', hl'⟩ := ih { s1 with op := finishRequest cu s1.op } w1
      refine ⟨l ++ l', ?_, ?_⟩
      · rw [e', show w1.seen = _ from e, List.append_assoc]
      · intro x hx
        rcases List.mem_append.mp hx with hx | hx
        · exact here x hx
        · obtain ⟨c, hc, h⟩ := hl' x hx
          exact ⟨c, by simp [hc], h⟩
    | err x => exact ⟨l, e, here⟩
    | panic => exact ⟨l, e, here⟩

theorem respSeen_check {cu : ContentUnit S} : RespSeen cu ⟨cu, .check, none⟩ := ⟨rfl, .inl rfl, rfl⟩

theorem respSeen_response {cu : ContentUnit S} : RespSeen cu ⟨cu, .response, some ⟨true, "body"⟩⟩ :=
  ⟨rfl, .inr (.inl rfl), rfl⟩

theorem respSeen_header {cu : ContentUnit S} : RespSeen cu ⟨cu, .header, some ⟨true, "header"⟩⟩ :=
  ⟨rfl, .inr (.inr rfl), rfl⟩

theorem logs_jsonResponse (v : Ver S) (env : Env S) (cu : ContentUnit S) (s : RespState S) (w : Watch S) :
    ∃ l, (parseJSONResponseW v env cu (s, w)).1.2.seen = w.seen ++ l ∧ (∀ x ∈ l, RespSeen cu x) ∧
      (cu.structure_.isSome = true → ⟨cu, .check, none⟩ ∈ l) ∧
      ((reflectJSONResponse env cu).isSome = true → ⟨cu, .response, some ⟨true, "body"⟩⟩ ∈ l) := by
  have pre : ∃ l, (if cu.structure_.isSome then w.blind cu .check else w).seen = w.seen ++ l ∧
      (∀ x ∈ l, RespSeen cu x) ∧ (cu.structure_.isSome = true → ⟨cu, .check, none⟩ ∈ l) := by
    split
    · exact ⟨_, rfl, by simpa using respSeen_check, by simp⟩
    · rename_i h
      exact ⟨[], by simp, by simp, fun h' => absurd h' h⟩
  obtain ⟨l0, e0, hl0, hc⟩ := pre
  simp only [parseJSONResponseW]
  generalize (if cu.structure_.isSome then w.blind cu .check else w) = w0 at e0 ⊢
  cases reflectJSONResponse env cu with
  | none => exact ⟨l0, e0, hl0, hc, by simp⟩
  | some refl =>
    obtain ⟨_, l, e, hl⟩ := logsAt_events (p := ⟨true, "body"⟩) (Q := RespSeen cu) (env := env)
      (onP := fun _ => watching (Watch.see cu .response) (fun s => (s, .ok)))
      (onD := fun n d => watching (Watch.see cu .response) (onRespDefinition v n d))
      (fun n d => logsAt_watching (adds_see respSeen_response) _) refl.events
      (fun c _ => logsAt_watching (adds_see respSeen_response) _) s
      ((w0.enter true "body").see cu .response) rfl
    simp only
    rcases hr : runEvents env (fun _ => watching (Watch.see cu .response) (fun s => (s, .ok)))
      (fun n d => watching (Watch.see cu .response) (onRespDefinition v n d)) refl.events
      (s, (w0.enter true "body").see cu .response) with ⟨⟨s1, w1⟩, out⟩
    rw [hr] at e
    have fin : ∃ l, w1.seen = w.seen ++ l ∧ (∀ x ∈ l, RespSeen cu x) ∧
        (cu.structure_.isSome = true → ⟨cu, .check, none⟩ ∈ l) ∧
        ((some refl).isSome = true → ⟨cu, .response, some ⟨true, "body"⟩⟩ ∈ l) := by
      refine ⟨l0 ++ ⟨cu, .response, some ⟨true, "body"⟩⟩ :: l, ?_, ?_, fun h => by simp [hc h], by simp⟩
      · rw [show w1.seen = _ from e]; simp [Watch.enter, Watch.see, e0]
      · intro x hx
        simp only [List.mem_append, List.mem_cons] at hx
        rcases hx with hx | rfl | hx
        · exact hl0 x hx
        · exact respSeen_response
        · exact hl x hx
    cases out with
    | ok =>
      simp only
      cases refl.result with
      | error x => exact fin
      | ok js => simp only; cases v.conv js <;> exact fin
    | err x => exact fin
    | panic => exact fin

theorem logs_header (v : Ver S) (env : Env S) (cu : ContentUnit S) (s : RespState S) (w : Watch S) :
    ∃ l, (parseResponseHeaderW v env cu (s, w)).1.2.seen = w.seen ++ l ∧ (∀ x ∈ l, RespSeen cu x) ∧
      (cu.structure_.isSome = true → ⟨cu, .header, some ⟨true, "header"⟩⟩ ∈ l) := by
  simp only [parseResponseHeaderW]
  cases cu.structure_ with
  | none => exact ⟨[], by simp, by simp, by simp⟩
  | some value =>
    obtain ⟨_, l, e, hl⟩ := logsAt_events (p := ⟨true, "header"⟩) (Q := RespSeen cu) (env := env)
      (onP := fun c => watching (Watch.see cu .header) (onHeader v c))
      (onD := fun _ _ => watching (Watch.see cu .header) (fun s => (s, .ok)))
      (fun n d => logsAt_watching (adds_see respSeen_header) _) (value.headers (cu.fieldMapping "header")).events
      (fun c _ => logsAt_watching (adds_see respSeen_header) _)
      ([] : GoMap (HeaderOrRef S)) ((w.enter true "header").see cu .header) rfl
    simp only
    rcases hr : runEvents env (fun c => watching (Watch.see cu .header) (onHeader v c))
      (fun _ _ => watching (Watch.see cu .header) (fun s => (s, .ok))) (value.headers (cu.fieldMapping "header")).events
      (([] : GoMap (HeaderOrRef S)), (w.enter true "header").see cu .header) with ⟨⟨s1, w1⟩, out⟩
    rw [hr] at e
    have fin : ∃ l, w1.seen = w.seen ++ l ∧ (∀ x ∈ l, RespSeen cu x) ∧
        ((some value).isSome = true → ⟨cu, .header, some ⟨true, "header"⟩⟩ ∈ l) := by
      refine ⟨⟨cu, .header, some ⟨true, "header"⟩⟩ :: l, ?_, ?_, by simp⟩
      · rw [show w1.seen = _ from e]; simp [Watch.enter, Watch.see]
      · intro x hx
        rcases List.mem_cons.mp hx with rfl | hx
        · exact respSeen_header
        · exact hl x hx
    cases out with
    | ok =>
      simp only
      cases (value.headers (cu.fieldMapping "header")).result <;> exact fin
    | err x => exact fin
    | panic => exact fin

theorem logs_jsonResponse' (v : Ver S) (env : Env S) (cu : ContentUnit S) :
    Logs (RespSeen cu) (parseJSONResponseW v env cu) := by
  intro s w
  obtain ⟨l, e, hl, _⟩ := logs_jsonResponse v env cu s w
  exact ⟨l, e, hl⟩

theorem logs_header' (v : Ver S) (env : Env S) (cu : ContentUnit S) :
    Logs (RespSeen cu) (parseResponseHeaderW v env cu) := by
  intro s w
  obtain ⟨l, e, hl, _⟩ := logs_header v env cu s w
  exact ⟨l, e, hl⟩

theorem logs_response1 (v : Ver S) (env : Env S) (method : String) (cu : ContentUnit S) :
    Logs (RespSeen cu) (reflectResponseW v env method cu) := by
  intro s w
  simp only [reflectResponseW]
  split
  · obtain ⟨l, e, hl⟩ := logs_join (Q := RespSeen cu) (as := [_, _]) (by
      intro a ha
      simp only [List.mem_cons, List.not_mem_nil, or_false] at ha
      rcases ha with rfl | rfl
      · exact logs_jsonResponse' v env cu
      · exact logs_header' v env cu) [] s w
    rcases hr : joinActs [parseJSONResponseW v env cu, parseResponseHeaderW v env cu] [] (s, w) with ⟨⟨s1, w1⟩, out⟩
    rw [hr] at e
    cases out with
    | ok =>
      simp only [watching]
      rcases parseRawResponseBody v cu s1 with ⟨s2, out⟩
      cases out with
      | ok => simp only; split <;> exact ⟨l, e, hl⟩
      | err x => exact ⟨l, e, hl⟩
      | panic => exact ⟨l, e, hl⟩
    | err x => exact ⟨l, e, hl⟩
    | panic => exact ⟨l, e, hl⟩
  · exact logs_header' v env cu s w

theorem logs_response (v : Ver S) (env : Env S) (method : String) (cus : List (ContentUnit S)) :
    Logs (fun x => ∃ cu ∈ cus, RespSeen (normaliseUnit cu) x) (setupResponseW v env method cus) := by
  induction cus with
  | nil => intro s w; exact ⟨[], by simp [setupResponseW], by simp⟩
  | cons cu cus ih =>
    intro s w
    obtain ⟨l, e, hl⟩ := logs_response1 v env method (normaliseUnit cu)
      ⟨s.schemas, ((respSlot (normaliseUnit cu) s.op).bind (·.response)).getD {}⟩ w
    simp only [setupResponseW]
    rcases hr : reflectResponseW v env method (normaliseUnit cu)
      (⟨s.schemas, ((respSlot (normaliseUnit cu) s.op).bind (·.response)).getD {}⟩, w) with ⟨⟨s1, w1⟩, out⟩
    rw [hr] at e
    have here : ∀ x ∈ l, ∃ c ∈ cu :: cus, RespSeen (normaliseUnit c) x := fun x hx => ⟨cu, by simp, hl x hx⟩
    cases out with
    | ok =>
      obtain ⟨l', e', hl'⟩ := ih
        ⟨s1.schemas, setRespSlot (normaliseUnit cu) (finishResponse (normaliseUnit cu) s1.resp) s.op⟩ w1
      refine ⟨l ++ l', ?_, ?_⟩
      · rw [e', show w1.seen = _ from e, List.append_assoc]
      · intro x hx
        rcases List.mem_append.mp hx with hx | hx
        · exact here x hx
        · obtain ⟨c, hc, h⟩ := hl' x hx
          exact ⟨c, by simp [hc], h⟩
    | err x => exact ⟨l, e, here⟩
    | panic => exact ⟨l, e, here⟩

/-! ## Nothing is left out -/

theorem has_of_logs {σ : Type} {Q : Seen S → Prop} {a : Act (σ × Watch S)} (h : Logs Q a) {s : σ} {w : Watch S}
    {cu : ContentUnit S} {t : Task} (hw : w.Has cu t) : (a (s, w)).1.2.Has cu t := by
  obtain ⟨l, e, _⟩ := h s w
  obtain ⟨x, hx, hh⟩ := hw
  exact ⟨x, by rw [e]; simp [hx], hh⟩

/-- In a join that does not panic, all steps are made. -/
theorem has_join {σ : Type} {Q : Seen S → Prop} {cu : ContentUnit S} {t : Task} {as : List (Act (σ × Watch S))}
    (h : ∀ a ∈ as, Logs Q a) {a : Act (σ × Watch S)} (ha : a ∈ as)
    (hs : ∀ s w, (a (s, w)).2 ≠ .panic → (a (s, w)).1.2.Has cu t) (errs : List (Option String)) (s : σ) (w : Watch S)
    (hp : (joinActs as errs (s, w)).2 ≠ .panic) : (joinActs as errs (s, w)).1.2.Has cu t := by
  induction as generalizing errs s w with
  | nil => simp at ha
  | cons b as ih =>
    simp only [joinActs] at hp ⊢
    have rest : ∀ a ∈ as, Logs Q a := fun a ha => h a (by simp [ha])
    rcases hb : b (s, w) with ⟨⟨s1, w1⟩, out⟩
    rw [hb] at hp
    rcases List.mem_cons.mp ha with rfl | ha
    · have := hs s w
      rw [hb] at this
      cases out with
      | ok => exact has_of_logs (logs_join rest _) (this (by simp))
      | err x => exact has_of_logs (logs_join rest _) (this (by simp))
      | panic => exact absurd rfl hp
    · cases out with
      | ok => exact ih rest ha _ _ _ hp
      | err x => exact ih rest ha _ _ _ hp
      | panic => exact absurd rfl hp

theorem has_params (v : Ver S) (env : Env S) (cu : ContentUnit S) {inn : String}
    (h : inn ∈ ["query", "path", "cookie", "header"]) (hm : (cu.value env).isSliceOrMap = false) (s : ReqState S)
    (w : Watch S) (hp : (parseParametersW v env cu (s, w)).2 ≠ .panic) :
    (parseParametersW v env cu (s, w)).1.2.Has cu (.params inn) := by
  refine has_join (Q := ReqSeen env cu) (a := parseParametersInW v env cu inn) ?_ ?_ ?_ [] s w hp
  · intro a ha
    simp only [List.mem_cons, List.not_mem_nil, or_false] at ha
    rcases ha with rfl | rfl | rfl | rfl <;> exact logs_paramsIn' v env cu _ (by simp)
  · simp only [List.mem_cons, List.not_mem_nil, or_false] at h ⊢
    rcases h with rfl | rfl | rfl | rfl <;> simp
  · intro s w _
    obtain ⟨l, e, _, hx⟩ := logs_paramsIn v env cu inn h s w
    exact ⟨_, by rw [e]; exact List.mem_append_right _ (hx hm), rfl, rfl⟩

/-- In a join that succeeds, all steps are made and succeed. -/
theorem has_joinOk {σ : Type} {Q : Seen S → Prop} {cu : ContentUnit S} {t : Task} {as : List (Act (σ × Watch S))}
    (h : ∀ a ∈ as, Logs Q a) {a : Act (σ × Watch S)} (ha : a ∈ as)
    (hs : ∀ s w, (a (s, w)).2 = .ok → (a (s, w)).1.2.Has cu t) (errs : List (Option String)) (s : σ) (w : Watch S)
    (hp : (joinActs as errs (s, w)).2 = .ok) : (joinActs as errs (s, w)).1.2.Has cu t := by
  induction as generalizing errs s w with
  | nil => simp at ha
  | cons b as ih =>
    have hp' := (joinActs_ok (s' := (joinActs (b :: as) errs (s, w)).1) (Prod.ext rfl hp)).2
    simp only [joinActs] at hp ⊢
    have rest : ∀ a ∈ as, Logs Q a := fun a ha => h a (by simp [ha])
    rcases hb : b (s, w) with ⟨⟨s1, w1⟩, out⟩
    rw [hb] at hp
    have ho : out = .ok := by
      cases out with
      | ok => rfl
      | err e => simp [foldActs, hb] at hp'
      | panic => cases hp
    subst ho
    rcases List.mem_cons.mp ha with rfl | ha
    · have := hs s w
      rw [hb] at this
      exact has_of_logs (logs_join rest _) (this rfl)
    · exact ih rest ha _ _ _ hp

theorem has_seeAll {A : Type} {cu : ContentUnit S} {t t' : Task} (l : List A) {w : Watch S} (h : w.Has cu t) :
    (w.seeAll cu t' l).Has cu t := by
  induction l generalizing w with
  | nil => exact h
  | cons a l ih =>
    obtain ⟨x, hx, hh⟩ := h
    exact ih (w := w.see cu t') ⟨x, by simp [Watch.see, hx], hh⟩

/-- The type of a field that became a parameter was reflected. -/
theorem has_fieldCalls (v : Ver S) {cu : ContentUnit S} {inn : String} {c : PropCall S} (ht : c.processed = true ∧ c.pathLen ≤ 1)
    {s : ReqState S} {w : Watch S} (h : (onParameter v inn c s).2 = .ok) : (fieldCalls v cu inn c w).Has cu (.field inn) := by
  have hg : ¬ (!c.processed || decide (c.pathLen > 1)) = true := by simp [ht.1]; omega
  simp only [onParameter, if_neg hg] at h
  simp only [fieldCalls, if_neg hg]
  unfold buildParameter at h
  cases hc : v.conv c.schema with
  | ok sc =>
    simp only
    exact has_seeAll _ ⟨_, by simp [Watch.see]; exact .inr rfl, rfl, rfl⟩
  | err e => rw [hc] at h; cases h
  | panic => rw [hc] at h; cases h

/-- If all callbacks succeed, each was made. -/
theorem has_events {env : Env S} {p : Progress} {Q : Seen S → Prop} {cu : ContentUnit S} {t : Task} {σ : Type}
    {onP : PropCall S → Act (σ × Watch S)} {onD : String → JS → Act (σ × Watch S)} (hd : ∀ n x, LogsAt p Q (onD n x))
    {c : PropCall S} (hs : ∀ s w, (onP c (s, w)).2 = .ok → (onP c (s, w)).1.2.Has cu t) (es : List (Event S))
    (hl : ∀ c, Event.prop c ∈ es → LogsAt p Q (onP c)) (hc : Event.prop c ∈ es) (s : σ) (w : Watch S) (hw : w.progress = p)
    (h : (runEvents env onP onD es (s, w)).2 = .ok) : (runEvents env onP onD es (s, w)).1.2.Has cu t := by
  induction es generalizing s w with
  | nil => cases hc
  | cons e es ih =>
    have hl' : ∀ c, Event.prop c ∈ es → LogsAt p Q (onP c) := fun c hc => hl c (by simp [hc])
    cases e with
    | prop c' =>
      obtain ⟨hw1, _⟩ := hl c' (by simp) s w hw
      simp only [runEvents] at h ⊢
      rcases hr : onP c' (s, w) with ⟨⟨s1, w1⟩, out⟩
      rw [hr] at h hw1
      cases out with
      | ok =>
        simp only at h ⊢
        rcases List.mem_cons.1 hc with e | hc
        · cases e
          have := hs s w
          rw [hr] at this
          obtain ⟨_, l, e, _⟩ := logsAt_events (env := env) hd es hl' s1 w1 hw1
          obtain ⟨x, hx, hh⟩ := this rfl
          exact ⟨x, by rw [e]; exact List.mem_append_left _ hx, hh⟩
        · exact ih hl' hc s1 w1 hw1 h
      | err e => cases h
      | panic => cases h
    | defn n d =>
      obtain ⟨hw1, _⟩ := hd n d s w hw
      simp only [runEvents] at h ⊢
      rcases hr : onD n d (s, w) with ⟨⟨s1, w1⟩, out⟩
      rw [hr] at h hw1
      cases out with
      | ok =>
        simp only at h ⊢
        rcases List.mem_cons.1 hc with e | hc
        · cases e
        · exact ih hl' hc s1 w1 hw1 h
      | err e => cases h
      | panic => cases h

theorem has_fields (v : Ver S) (env : Env S) (cu : ContentUnit S) {inn : String}
    (h : inn ∈ ["query", "path", "cookie", "header"]) {c : PropCall S} (hc : c ∈ paramsOf env cu inn) (s : ReqState S)
    (w : Watch S) (hp : (parseParametersInW v env cu inn (s, w)).2 = .ok) :
    (parseParametersInW v env cu inn (s, w)).1.2.Has cu (.field inn) := by
  obtain ⟨hm, hc, ht⟩ := mem_paramsOf.1 hc
  have hev := has_events (env := env) (p := ⟨false, inn⟩) (Q := ReqSeen env cu) (cu := cu) (t := .field inn)
      (onP := fun c => watching (fieldCalls v cu inn c) (onParameter v inn c))
      (onD := fun n d => watching (Watch.see cu (.params inn)) (onReqDefinition v n d))
      (fun n d => logsAt_watching (adds_see (reqSeen_params h)) _) (c := c) (fun s w e => has_fieldCalls v ht (s := s) e)
      ((cu.value env).params inn (cu.fieldMapping inn)).events
      (fun c hc => logsAt_watching (adds_field v h c hc hm) _) hc s ((w.enter false inn).see cu (.params inn)) rfl
  simp only [parseParametersInW, input_eq, hm, Bool.false_eq_true, if_false] at hp ⊢
  rcases hr : runEvents env (fun c => watching (fieldCalls v cu inn c) (onParameter v inn c))
      (fun n d => watching (Watch.see cu (.params inn)) (onReqDefinition v n d))
      ((cu.value env).params inn (cu.fieldMapping inn)).events (s, (w.enter false inn).see cu (.params inn)) with ⟨⟨s1, w1⟩, out⟩
  rw [hr] at hev hp
  cases out with
  | ok =>
    simp only at hp ⊢
    cases hx : ((cu.value env).params inn (cu.fieldMapping inn)).result with
    | error x => exact hev rfl
    | ok js => simp only; split <;> exact hev rfl
  | err x => cases hp
  | panic => cases hp

theorem has_paramFields (v : Ver S) (env : Env S) (cu : ContentUnit S) {inn : String}
    (h : inn ∈ ["query", "path", "cookie", "header"]) {c : PropCall S} (hc : c ∈ paramsOf env cu inn) (s : ReqState S)
    (w : Watch S) (hp : (parseParametersW v env cu (s, w)).2 = .ok) :
    (parseParametersW v env cu (s, w)).1.2.Has cu (.field inn) := by
  refine has_joinOk (Q := ReqSeen env cu) (a := parseParametersInW v env cu inn) ?_ ?_ (has_fields v env cu h hc) [] s w hp
  · intro a ha
    simp only [List.mem_cons, List.not_mem_nil, or_false] at ha
    rcases ha with rfl | rfl | rfl | rfl <;> exact logs_paramsIn' v env cu _ (by simp)
  · simp only [List.mem_cons, List.not_mem_nil, or_false] at h ⊢
    rcases h with rfl | rfl | rfl | rfl <;> simp

/-- A body that is built was reflected. -/
theorem has_body (v : Ver S) (env : Env S) (cu : ContentUnit S) (method mime : String) (mapping : GoMap String)
    (tag : String) (tags : List String) (t : Task) {b : (JS × List (String × JS)) × Bool}
    (h : reflectRequestBody env cu method mapping tag tags = .ok (some b)) (s : ReqState S) (w : Watch S) :
    (parseRequestBodyW v env cu method mime mapping tag tags t (s, w)).1.2.Has cu t := by
  show (bodyCalls env cu method mapping tag tags t w).Has cu t
  simp only [reflectRequestBody, input_eq] at h
  simp only [bodyCalls, input_eq]
  split at h
  · simp at h
  · rename_i h1
    rw [if_neg h1]
    split at h
    · simp at h
    · rename_i h2
      rw [if_neg h2]
      split at h
      · simp at h
      · rename_i h3
        rw [if_neg h3]
        cases hp : env.processWithoutTags with
        | error e => rw [hp] at h; simp at h
        | ok x =>
          rw [hp] at h
          simp only at h ⊢
          split at h
          · simp at h
          · rename_i h4
            rw [if_neg h4]
            have grows : ∀ {A : Type} (l : List A) (w : Watch S), w.Has cu t → (w.seeAll cu t l).Has cu t := by
              intro A l
              induction l with
              | nil => exact fun w h => h
              | cons a l ih =>
                intro w ⟨x, hx, hh⟩
                exact ih (w.see cu t) ⟨x, by simp [Watch.see, hx], hh⟩
            exact grows _ _ ⟨_, by simp [Watch.see]; exact .inr rfl, rfl, rfl⟩

theorem has_unit (v : Ver S) (env : Env S) (method : String) (cu : ContentUnit S) {t : Task} (hd : Due env method cu t)
    (s : ReqState S) (w : Watch S) (hp : (reflectUnitW v env method cu (s, w)).2 = .ok) :
    (reflectUnitW v env method cu (s, w)).1.2.Has cu t := by
  have b1 := logs_body v env cu method "application/x-www-form-urlencoded" (cu.fieldMapping "formData") "formData"
    ["form"] .form (.inl rfl)
  have b2 := logs_body v env cu method "application/json" [] "json" [] .json (.inr rfl)
  have pa := logs_params v env cu
  have join : ∀ (as : List (Act (ReqState S × Watch S))),
      (∀ a ∈ as, a = parseRequestBodyW v env cu method "application/x-www-form-urlencoded"
        (cu.fieldMapping "formData") "formData" ["form"] .form ∨ a = parseParametersW v env cu ∨
        a = parseRequestBodyW v env cu method "application/json" [] "json" [] .json) →
      (HasForm env method cu → t = .form → parseRequestBodyW v env cu method "application/x-www-form-urlencoded"
        (cu.fieldMapping "formData") "formData" ["form"] .form ∈ as) →
      parseParametersW v env cu ∈ as →
      (HasJson env method cu → t = .json →
        parseRequestBodyW v env cu method "application/json" [] "json" [] .json ∈ as) →
      (joinActs as [] (s, w)).2 = .ok → (joinActs as [] (s, w)).1.2.Has cu t := by
    intro as has hf hpa hj hp
    have all : ∀ a ∈ as, Logs (ReqSeen env cu) a := by
      intro a ha
      rcases has a ha with rfl | rfl | rfl
      · exact b1
      · exact pa
      · exact b2
    rcases hd with ⟨hm, _, inn, hi, rfl | ⟨hx, rfl⟩⟩ | ⟨hx, _, rfl⟩ | ⟨hx, _, rfl⟩
    · exact has_joinOk all hpa (fun s w e => has_params v env cu hi hm s w (by rw [e]; nofun)) [] s w hp
    · obtain ⟨c, hc⟩ := List.exists_mem_of_ne_nil _ hx
      exact has_joinOk all hpa (has_paramFields v env cu hi hc) [] s w hp
    · refine has_joinOk all (hf hx rfl) ?_ [] s w hp
      obtain ⟨b, hb⟩ := hx
      exact fun s w _ => has_body v env cu method _ _ _ _ .form hb s w
    · refine has_joinOk all (hj hx rfl) ?_ [] s w hp
      obtain ⟨b, hb⟩ := hx
      exact fun s w _ => has_body v env cu method _ _ _ _ .json hb s w
  simp only [reflectUnitW] at hp ⊢
  split
  · rename_i h0
    rw [if_pos h0] at hp
    have hj : (joinActs [parseRequestBodyW v env cu method "application/x-www-form-urlencoded"
      (cu.fieldMapping "formData") "formData" ["form"] .form, parseParametersW v env cu,
      parseRequestBodyW v env cu method "application/json" [] "json" [] .json] [] (s, w)).2 = .ok := by
      rcases hr : joinActs [parseRequestBodyW v env cu method "application/x-www-form-urlencoded"
        (cu.fieldMapping "formData") "formData" ["form"] .form, parseParametersW v env cu,
        parseRequestBodyW v env cu method "application/json" [] "json" [] .json] [] (s, w) with ⟨⟨s1, w1⟩, out⟩
      rw [hr] at hp
      cases out with
      | ok => rfl
      | err e => cases hp
      | panic => cases hp
    have := join _ (by simp) (by simp) (by simp) (by simp) hj
    rcases hr : joinActs [parseRequestBodyW v env cu method "application/x-www-form-urlencoded"
      (cu.fieldMapping "formData") "formData" ["form"] .form, parseParametersW v env cu,
      parseRequestBodyW v env cu method "application/json" [] "json" [] .json] [] (s, w) with ⟨⟨s1, w1⟩, out⟩
    rw [hr] at this
    cases out <;> exact this
  · rename_i h0
    rw [if_neg h0] at hp
    split
    · rename_i h1
      rw [if_pos h1] at hp
      refine join _ (by simp) ?_ (by simp) (by simp) hp
      intro _ ht
      rcases hd with ⟨_, _, _, _, e | ⟨_, e⟩⟩ | ⟨_, hc, _⟩ | ⟨_, _, e⟩
      · rw [ht] at e; simp at e
      · rw [ht] at e; simp at e
      · simp [h1] at hc
      · rw [ht] at e; simp at e
    · rename_i h1
      rw [if_neg h1] at hp
      split
      · rename_i h2
        rw [if_pos h2] at hp
        refine join _ (by simp) (by simp) (by simp) ?_ hp
        intro _ ht
        rcases hd with ⟨_, _, _, _, e | ⟨_, e⟩⟩ | ⟨_, _, e⟩ | ⟨_, hc, _⟩
        · rw [ht] at e; simp at e
        · rw [ht] at e; simp at e
        · rw [ht] at e; simp at e
        · simp [h0, h1] at hc
      · rename_i h2
        rcases hd with ⟨_, hc, _⟩ | ⟨_, hc, _⟩ | ⟨_, hc, _⟩ <;> simp_all

theorem has_request (v : Ver S) (env : Env S) (method : String) {cu : ContentUnit S} {t : Task}
    (hd : Due env method cu t) (cus : List (ContentUnit S)) (hcu : cu ∈ cus) (s : ReqState S) (w : Watch S)
    (hp : (setupRequestW v env method cus (s, w)).2 = .ok) :
    (setupRequestW v env method cus (s, w)).1.2.Has cu t := by
  induction cus generalizing s w with
  | nil => simp at hcu
  | cons c cus ih =>
    have hu := has_unit v env method cu hd
    simp only [setupRequestW] at hp ⊢
    rcases hr : reflectUnitW v env method c (s, w) with ⟨⟨s1, w1⟩, out⟩
    rw [hr] at hp
    cases out with
    | ok =>
      simp only at hp ⊢
      rcases List.mem_cons.mp hcu with rfl | hcu
      · have := hu s w (by rw [hr])
        rw [hr] at this
        exact has_of_logs (logs_request v env method cus) this
      · exact ih hcu _ _ hp
    | err x => simp at hp
    | panic => simp at hp

theorem has_response1 (v : Ver S) (env : Env S) (method : String) (cu : ContentUnit S)
    (hs : cu.structure_.isSome = true) (s : RespState S) (w : Watch S)
    (hp : (reflectResponseW v env method cu (s, w)).2 ≠ .panic) :
    (reflectResponseW v env method cu (s, w)).1.2.Has cu .header ∧
      (¬ MethodIs method "head" → (reflectJSONResponse env cu).isSome = true →
        (reflectResponseW v env method cu (s, w)).1.2.Has cu .response) := by
  have hh : ∀ s w, (parseResponseHeaderW v env cu (s, w)).2 ≠ .panic →
      (parseResponseHeaderW v env cu (s, w)).1.2.Has cu .header := by
    intro s w _
    obtain ⟨l, e, _, hx⟩ := logs_header v env cu s w
    exact ⟨_, by rw [e]; exact List.mem_append_right _ (hx hs), rfl, rfl⟩
  simp only [reflectResponseW] at hp ⊢
  split
  · rename_i h0
    rw [if_pos h0] at hp
    have all : ∀ a ∈ [parseJSONResponseW v env cu, parseResponseHeaderW v env cu], Logs (RespSeen cu) a := by
      intro a ha
      simp only [List.mem_cons, List.not_mem_nil, or_false] at ha
      rcases ha with rfl | rfl
      · exact logs_jsonResponse' v env cu
      · exact logs_header' v env cu
    have hj : (joinActs [parseJSONResponseW v env cu, parseResponseHeaderW v env cu] [] (s, w)).2 ≠ .panic := by
      intro e
      rcases hr : joinActs [parseJSONResponseW v env cu, parseResponseHeaderW v env cu] [] (s, w) with ⟨⟨s1, w1⟩, out⟩
      rw [hr] at e hp
      simp only at e
      subst e
      exact hp rfl
    have one := has_join all (a := parseResponseHeaderW v env cu) (by simp) hh [] s w hj
    have two : (reflectJSONResponse env cu).isSome = true →
        (joinActs [parseJSONResponseW v env cu, parseResponseHeaderW v env cu] [] (s, w)).1.2.Has cu .response := by
      intro hb
      refine has_join all (a := parseJSONResponseW v env cu) (by simp) ?_ [] s w hj
      intro s w _
      obtain ⟨l, e, _, _, hx⟩ := logs_jsonResponse v env cu s w
      exact ⟨_, by rw [e]; exact List.mem_append_right _ (hx hb), rfl, rfl⟩
    rcases hr : joinActs [parseJSONResponseW v env cu, parseResponseHeaderW v env cu] [] (s, w) with ⟨⟨s1, w1⟩, out⟩
    rw [hr] at one two
    cases out with
    | ok =>
      simp only [watching]
      rcases parseRawResponseBody v cu s1 with ⟨s2, out⟩
      cases out with
      | ok => simp only; split <;> exact ⟨one, fun _ => two⟩
      | err x => exact ⟨one, fun _ => two⟩
      | panic => exact ⟨one, fun _ => two⟩
    | err x => exact ⟨one, fun _ => two⟩
    | panic => exact ⟨one, fun _ => two⟩
  · rename_i h0
    rw [if_neg h0] at hp
    exact ⟨hh s w hp, fun h => absurd (mt (upper_head method).mp h) h0⟩

theorem has_response (v : Ver S) (env : Env S) (method : String) {cu : ContentUnit S}
    (hs : cu.structure_.isSome = true) (cus : List (ContentUnit S)) (hcu : cu ∈ cus) (s : ReqState S) (w : Watch S)
    (hp : (setupResponseW v env method cus (s, w)).2 = .ok) :
    (setupResponseW v env method cus (s, w)).1.2.Has (normaliseUnit cu) .header ∧
      (¬ MethodIs method "head" → (reflectJSONResponse env cu).isSome = true →
        (setupResponseW v env method cus (s, w)).1.2.Has (normaliseUnit cu) .response) := by
  induction cus generalizing s w with
  | nil => simp at hcu
  | cons c cus ih =>
    simp only [setupResponseW] at hp ⊢
    rcases hr : reflectResponseW v env method (normaliseUnit c)
      (⟨s.schemas, ((respSlot (normaliseUnit c) s.op).bind (·.response)).getD {}⟩, w) with ⟨⟨s1, w1⟩, out⟩
    rw [hr] at hp
    cases out with
    | ok =>
      simp only at hp ⊢
      rcases List.mem_cons.mp hcu with rfl | hcu
      · have := has_response1 v env method (normaliseUnit cu) hs
          ⟨s.schemas, ((respSlot (normaliseUnit cu) s.op).bind (·.response)).getD {}⟩ w (by rw [hr]; simp)
        rw [hr] at this
        exact ⟨has_of_logs (logs_response v env method cus) this.1,
          fun h hb => has_of_logs (logs_response v env method cus) (this.2 h hb)⟩
      · exact ih hcu _ _ hp
    | err x => simp at hp
    | panic => simp at hp

end Verif
