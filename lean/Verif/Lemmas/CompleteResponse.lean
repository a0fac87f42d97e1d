import Verif.Lemmas.Complete
import Verif.Props.Response

/-!
# When the reflection of a response succeeds
-/

namespace Verif
variable {S σ : Type}

/-- A part of the reflection that succeeds, whatever the state, exactly under a condition, and never panics. -/
def Settled (c : Prop) (X : Act σ) : Prop := ∀ s, ((X s).2 = .ok ↔ c) ∧ (X s).2 ≠ .panic

theorem Settled.seq {c c' : Prop} {X Y Z : Act σ} (hX : Settled c X) (hY : Settled c' Y)
    (h1 : ∀ s, (X s).2 = .ok → Z s = Y (X s).1) (h2 : ∀ s, (X s).2 ≠ .ok → (Z s).2 ≠ .ok ∧ (Z s).2 ≠ .panic) :
    Settled (c ∧ c') Z := by
  intro s
  by_cases ho : (X s).2 = .ok
  · rw [h1 s ho]
    refine ⟨?_, (hY _).2⟩
    rw [(hY _).1]
    exact ⟨fun h => ⟨(hX s).1.mp ho, h⟩, fun h => h.2⟩
  · refine ⟨⟨fun h => absurd h (h2 s ho).1, fun h => absurd ((hX s).1.mpr h.1) ho⟩, (h2 s ho).2⟩

theorem Settled.congr {c c' : Prop} {X : Act σ} (h : Settled c X) (e : c ↔ c') : Settled c' X :=
  fun s => ⟨(h s).1.trans e, (h s).2⟩

theorem settled_ok {X : Act σ} (h : ∀ s, (X s).2 = .ok) : Settled True X :=
  fun s => by simp [h s]

theorem foldActs_settled {α : Type} {f : α → Act σ} {xs : List α} (h : ∀ x ∈ xs, Settled True (f x)) :
    Settled True (foldActs f xs) := by
  induction xs with
  | nil => exact settled_ok fun _ => rfl
  | cons x xs ih =>
    refine ((h x List.mem_cons_self).seq (ih fun y hy => h y (List.mem_cons_of_mem _ hy)) ?_ ?_).congr (by simp)
    · intro s ho
      simp only [foldActs]
      split
      · rename_i hx; rw [hx]
      · rename_i hx; exact (hx _ (Prod.ext rfl ho)).elim
    · intro s ho
      exact absurd ((h x List.mem_cons_self s).1.mpr trivial) ho

theorem runEvents_settled {env : Env S} {onProp : PropCall S → Act σ} {onDef : String → JS → Act σ}
    {es : List (Event S)} {c : PropCall S → Prop} (hp : ∀ p, Event.prop p ∈ es → Settled (c p) (onProp p))
    (hd : ∀ n d, Event.defn n d ∈ es → Settled True (onDef n d)) :
    Settled (∀ p, Event.prop p ∈ es → c p) (runEvents env onProp onDef es) := by
  induction es with
  | nil => exact (settled_ok fun _ => rfl).congr (by simp)
  | cons e es ih =>
    have ih := ih (fun p h => hp p (List.mem_cons_of_mem _ h)) (fun n d h => hd n d (List.mem_cons_of_mem _ h))
    cases e with
    | prop p =>
      have hf := hp p List.mem_cons_self
      refine (hf.seq ih (Z := runEvents env onProp onDef (.prop p :: es)) ?_ ?_).congr ?_
      · intro s ho
        simp only [runEvents]
        split
        · rename_i hx; rw [hx]
        · rename_i hx; rw [hx] at ho; cases ho
        · rename_i hx; rw [hx] at ho; cases ho
      · intro s ho
        have hn := (hf s).2
        simp only [runEvents]
        split
        · rename_i hx; rw [hx] at ho; exact absurd rfl ho
        · simp
        · rename_i hx; rw [hx] at hn; exact absurd rfl hn
      · simp
    | defn n d =>
      have hf := hd n d List.mem_cons_self
      refine (hf.seq ih (Z := runEvents env onProp onDef (.defn n d :: es)) ?_ ?_).congr ?_
      · intro s ho
        simp only [runEvents]
        split
        · rename_i hx; rw [hx]
        · rename_i hx; rw [hx] at ho; cases ho
        · rename_i hx; rw [hx] at ho; cases ho
      · intro s ho
        exact absurd ((hf s).1.mpr trivial) ho
      · simp

theorem joinActs_settled_cons {c c' : Prop} {X : Act σ} {Xs : List (Act σ)} (h : Settled c X)
    (h' : Settled c' (joinActs Xs [])) (hn : ∀ X ∈ Xs, ∀ s, (X s).2 ≠ .panic) :
    Settled (c ∧ c') (joinActs (X :: Xs) []) := by
  have hn' : ∀ Y ∈ X :: Xs, ∀ s, (Y s).2 ≠ .panic := by
    intro Y hY
    rcases List.mem_cons.mp hY with rfl | hY
    · exact fun s => (h s).2
    · exact hn Y hY
  refine h.seq h' ?_ ?_
  · intro s ho
    simp only [joinActs, List.nil_append]
    rcases hx : X s with ⟨s1, o⟩
    rw [hx] at ho
    simp only at ho
    subst ho
    simp only [joinActs_none_cons]
  · intro s ho
    refine ⟨fun he => ?_, joinActs_nopanic _ hn' _ _⟩
    obtain ⟨-, hj⟩ := joinActs_ok (s' := (joinActs (X :: Xs) [] s).1) (Prod.ext rfl he)
    obtain ⟨s1, h1, -⟩ := foldActs_cons_ok hj
    apply ho
    simp only [id] at h1
    rw [h1]

theorem parseJSONResponse_settled {v : Ver S} {env : Env S} {cu : ContentUnit S} (hc : ResponseConverts v cu) :
    Settled (∀ value, cu.structure_ = some value → ¬ NoJSONBody env value →
      ∃ js, value.response.result = .ok js ∧ Converts v js) (parseJSONResponse v env cu) := by
  intro s
  cases hr : reflectJSONResponse env cu with
  | none =>
    simp only [parseJSONResponse, hr, true_iff]
    refine ⟨fun value hv hn => absurd ((reflectJSON_none env cu).mp hr value hv) hn, by simp⟩
  | some refl =>
    obtain ⟨value, hv, hn, rfl⟩ := (reflectJSON_iff env cu refl).mp hr
    have hcond : (∀ value', cu.structure_ = some value' → ¬ NoJSONBody env value' →
        ∃ js, value'.response.result = .ok js ∧ Converts v js) ↔ ∃ js, value.response.result = .ok js ∧ Converts v js := by
      constructor
      · intro h; exact h value hv hn
      · intro h value' hv' _
        rw [hv] at hv'; cases hv'; exact h
    rw [hcond]
    have he := runEvents_settled (σ := RespState S) (env := env) (onProp := fun _ s => (s, .ok))
      (onDef := onRespDefinition v) (es := value.response.events) (c := fun _ => True)
      (fun _ _ => settled_ok fun _ => rfl)
      (fun n d hm => settled_ok fun s => by
        obtain ⟨m, hm⟩ := collectDefinition_total (n := n) (hc.2.2.1 value n d hv hm) s.schemas
        simp only [onRespDefinition, hm]) s
    simp only [implies_true, iff_true] at he
    simp only [parseJSONResponse, hr]
    rcases hx : runEvents env (fun _ s => (s, Out.ok)) (onRespDefinition v) value.response.events s with ⟨s1, o⟩
    rw [hx] at he
    obtain ⟨rfl, -⟩ := he
    simp only
    cases hres : value.response.result with
    | error e => simp
    | ok js =>
      have hp := hc.1 value js hv hres
      simp only [Except.ok.injEq, exists_eq_left']
      cases hcv : v.conv js with
      | panic => exact absurd hcv hp
      | err e => simp [Converts, hcv]
      | ok sc => simp [Converts, hcv]

theorem onHeader_settled {v : Ver S} {c : PropCall S} (h1 : v.conv c.schema ≠ .panic)
    (h2 : ∀ sc, v.conv c.schema = .ok sc → v.headerDeprecated c.schema sc ≠ none) :
    Settled (c.processed = true ∧ c.pathLen ≤ 1 → ∃ h, HeaderFor v c h) (onHeader v c) := by
  intro res
  by_cases ht : c.processed = true ∧ c.pathLen ≤ 1
  · have hg : ¬ (!c.processed || decide (c.pathLen > 1)) = true := by
      simp only [Bool.or_eq_true, Bool.not_eq_true', decide_eq_true_eq, not_or, Bool.not_eq_false]
      exact ⟨ht.1, by omega⟩
    simp only [onHeader, if_neg hg]
    simp only [ht, true_implies, and_self, HeaderFor]
    cases hc : v.conv c.schema with
    | panic => exact absurd hc h1
    | err e => simp
    | ok sc =>
      simp only [Conv.ok.injEq]
      cases hd : v.headerDeprecated c.schema sc with
      | none => exact absurd hd (h2 sc hc)
      | some dep =>
        simp only
        cases hp : c.populateHeader { description := c.schema.description, deprecated := dep, schema := some sc } with
        | error e =>
          refine ⟨⟨nofun, ?_⟩, nofun⟩
          rintro ⟨h, sc', dep', rfl, hd', hp'⟩
          rw [hd] at hd'; cases hd'
          rw [hp] at hp'; cases hp'
        | ok h =>
          exact ⟨⟨fun _ => ⟨h, sc, dep, rfl, hd, hp⟩, fun _ => rfl⟩, nofun⟩
  · have hg : (!c.processed || decide (c.pathLen > 1)) = true := by
      simp only [Bool.or_eq_true, Bool.not_eq_true', decide_eq_true_eq]
      by_cases hp : c.processed = true
      · right; have : ¬ c.pathLen ≤ 1 := fun h => ht ⟨hp, h⟩; omega
      · left; simpa using hp
    simp only [onHeader, if_pos hg]
    simp [ht]

theorem parseResponseHeader_settled {v : Ver S} {env : Env S} {cu : ContentUnit S} (hc : ResponseConverts v cu) :
    Settled (∀ value, cu.structure_ = some value → (∃ js, (value.headers (cu.fieldMapping "header")).result = .ok js) ∧
      ∀ c ∈ topFields (value.headers (cu.fieldMapping "header")).events, ∃ h, HeaderFor v c h)
      (parseResponseHeader v env cu) := by
  intro s
  cases hv : cu.structure_ with
  | none => simp [parseResponseHeader, hv]
  | some value =>
    have he := runEvents_settled (env := env) (onProp := onHeader v) (onDef := fun _ _ s => (s, .ok))
      (es := (value.headers (cu.fieldMapping "header")).events)
      (c := fun c => c.processed = true ∧ c.pathLen ≤ 1 → ∃ h, HeaderFor v c h)
      (fun c hm => onHeader_settled (hc.2.1 value c hv hm).1 (hc.2.1 value c hv hm).2)
      (fun _ _ _ => settled_ok fun _ => rfl) []
    have ht : (∀ c ∈ topFields (value.headers (cu.fieldMapping "header")).events, ∃ h, HeaderFor v c h) ↔
        ∀ c, Event.prop c ∈ (value.headers (cu.fieldMapping "header")).events →
          c.processed = true ∧ c.pathLen ≤ 1 → ∃ h, HeaderFor v c h := by
      constructor
      · intro h c hm ht; exact h c (mem_topFields.mpr ⟨hm, ht⟩)
      · intro h c hm
        obtain ⟨a, b⟩ := mem_topFields.mp hm
        exact h c a b
    simp only [Option.some.injEq, forall_eq', ht]
    simp only [parseResponseHeader, hv]
    rcases hx : runEvents env (onHeader v) (fun _ _ s => (s, Out.ok))
      (value.headers (cu.fieldMapping "header")).events [] with ⟨res, o⟩
    rw [hx] at he
    obtain ⟨h1, h2⟩ := he
    simp only at h1 h2
    rw [← h1]
    cases o with
    | panic => exact absurd rfl h2
    | err e => simp
    | ok =>
      simp only [and_true]
      cases (value.headers (cu.fieldMapping "header")).result <;> simp

theorem ensure_settled {v : Ver S} {ct format : String} (h : Converts v (plainString format)) :
    Settled True (ensureResponseContentType v ct format) := by
  obtain ⟨sc, hs⟩ := h
  rw [← plainString_eq] at hs
  refine settled_ok fun s => ?_
  simp only [ensureResponseContentType, hs]
  split <;> rfl

theorem parseRaw_settled {v : Ver S} {cu : ContentUnit S} (h : ∀ format, Converts v (plainString format)) :
    Settled True (parseRawResponseBody v cu) := by
  unfold parseRawResponseBody
  cases hv : cu.structure_ with
  | none => exact settled_ok fun _ => rfl
  | some value =>
    refine foldActs_settled fun tag _ => ?_
    unfold rawResponseTag
    split
    · obtain ⟨sc, hs⟩ := h ""
      rw [← plainString_eq] at hs
      exact settled_ok fun s => by simp only [hs]
    · exact ensure_settled (h "")

theorem reflectResponse_settled {v : Ver S} {env : Env S} {method : String} {cu : ContentUnit S}
    (hc : ResponseConverts v cu) : Settled (ResponseReflects v env method cu) (reflectResponse v env method cu) := by
  have H := parseResponseHeader_settled (env := env) hc
  by_cases hm : ¬ MethodIs method "head"
  · have hu : goToUpper method ≠ "HEAD" := mt (upper_head method).mp hm
    have J := parseJSONResponse_settled (env := env) hc
    have R := parseRaw_settled (cu := cu) hc.2.2.2
    have E : Settled True (fun s => if cu.contentType ≠ "" then
        ensureResponseContentType v cu.contentType cu.format s else (s, Out.ok)) := by
      by_cases hct : cu.contentType ≠ ""
      · simp only [if_pos hct]; exact ensure_settled (hc.2.2.2 _)
      · simp only [if_neg hct]; exact settled_ok fun _ => rfl
    have N : Settled True (joinActs (σ := RespState S) [] []) := settled_ok fun _ => rfl
    have A := joinActs_settled_cons J (joinActs_settled_cons H N nofun)
      (fun X hX s => by rw [List.mem_singleton.mp hX]; exact (H s).2)
    have B := R.seq E (Z := fun s => match parseRawResponseBody v cu s with
      | (s, .ok) => if cu.contentType ≠ "" then ensureResponseContentType v cu.contentType cu.format s else (s, .ok)
      | r => r) ?_ ?_
    · have C := A.seq B (Z := reflectResponse v env method cu) ?_ ?_
      · refine C.congr ?_
        simp only [and_true, ResponseReflects, RespondsJSON]
        constructor
        · rintro ⟨h1, h2⟩
          exact ⟨fun value hr => h1 value hr.2.1 hr.2.2, h2⟩
        · rintro ⟨h1, h2⟩
          exact ⟨fun value hv hn => h1 value ⟨hm, hv, hn⟩, h2⟩
      · intro s ho
        simp only [reflectResponse, if_pos hu]
        split
        · rename_i hx; rw [hx]; rfl
        · rename_i hx; exact (hx _ (Prod.ext rfl ho)).elim
      · intro s ho
        simp only [reflectResponse, if_pos hu]
        split
        · rename_i hx; rw [hx] at ho; exact absurd rfl ho
        · exact ⟨ho, (A s).2⟩
    · intro s ho
      split
      · rename_i hx; rw [hx]
      · rename_i hx; exact (hx _ (Prod.ext rfl ho)).elim
    · intro s ho
      exact absurd ((R s).1.mpr trivial) ho
  · have e : reflectResponse v env method cu = parseResponseHeader v env cu := by
      funext s; simp only [reflectResponse, if_neg fun h => hm (mt (upper_head method).mpr h)]
    rw [e]
    refine H.congr ?_
    simp only [ResponseReflects, RespondsJSON]
    exact ⟨fun h => ⟨fun value hr => absurd hr.1 hm, h⟩, fun h => h.2⟩

theorem setupResponse_settled {v : Ver S} {env : Env S} {method : String} {cus : List (ContentUnit S)}
    (hc : ∀ cu ∈ cus, ResponseConverts v cu) :
    Settled (∀ cu ∈ cus, ResponseReflects v env method cu) (setupResponse v env method cus) := by
  induction cus with
  | nil => exact (settled_ok fun _ => rfl).congr (by simp)
  | cons cu cus ih =>
    have ih := ih fun cu' h => hc cu' (List.mem_cons_of_mem _ h)
    have R : Settled (ResponseReflects v env method cu) (reflectResponse v env method (normaliseUnit cu)) :=
      reflectResponse_settled (cu := normaliseUnit cu) (hc cu List.mem_cons_self)
    intro s
    obtain ⟨h1, h2⟩ := R ⟨s.schemas, ((respSlot (normaliseUnit cu) s.op).bind (·.response)).getD {}⟩
    simp only [setupResponse]
    rcases hx : reflectResponse v env method (normaliseUnit cu)
      ⟨s.schemas, ((respSlot (normaliseUnit cu) s.op).bind (·.response)).getD {}⟩ with ⟨r, o⟩
    rw [hx] at h1 h2
    simp only at h1 h2
    cases o with
    | ok =>
      have := h1.mp rfl
      obtain ⟨i1, i2⟩ := ih ⟨r.schemas, setRespSlot (normaliseUnit cu) (finishResponse (normaliseUnit cu) r.resp) s.op⟩
      refine ⟨?_, i2⟩
      rw [i1]
      simp [this]
    | err e =>
      refine ⟨⟨nofun, fun h => ?_⟩, nofun⟩
      have := h1.mpr (h cu List.mem_cons_self)
      cases this
    | panic => exact absurd rfl h2

end Verif
