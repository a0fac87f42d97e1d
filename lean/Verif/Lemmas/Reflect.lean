import Verif.Reflect
import Verif.Spec.Reflect
import Verif.Lemmas.Go

/-!
# Everything request reflection can do, as single steps

`ReqStep` lists every kind of change that reflecting a request unit can make, with its reason.
`setupRequest_steps` shows that the model makes no other change, whatever the outcome.
-/

namespace Verif
variable {S σ : Type}

/-- Reflexive transitive closure. -/
inductive Star (R : σ → σ → Prop) : σ → σ → Prop
  | refl (s : σ) : Star R s s
  | tail {a b c : σ} : Star R a b → R b c → Star R a c

namespace Star
variable {R Q : σ → σ → Prop}

theorem one {a b : σ} (h : R a b) : Star R a b := .tail (.refl a) h

theorem trans {a b c : σ} (h : Star R a b) (h' : Star R b c) : Star R a c := by
  induction h' with
  | refl => exact h
  | tail _ h2 ih => exact .tail ih h2

theorem mono (hRQ : ∀ a b, R a b → Q a b) {a b : σ} (h : Star R a b) : Star Q a b := by
  induction h with
  | refl => exact .refl _
  | tail _ h2 ih => exact .tail ih (hRQ _ _ h2)

/-- A reflexive and transitive relation that holds for every step holds for every sequence. -/
theorem lift (hr : ∀ a, Q a a) (ht : ∀ a b c, Q a b → Q b c → Q a c) (hRQ : ∀ a b, R a b → Q a b)
    {a b : σ} (h : Star R a b) : Q a b := by
  induction h with
  | refl => exact hr _
  | tail _ h2 ih => exact ht _ _ _ ih (hRQ _ _ h2)

/-- An invariant of the steps. -/
theorem inv {P : σ → Prop} (hP : ∀ a b, R a b → P a → P b) {a b : σ} (h : Star R a b) (ha : P a) : P b := by
  induction h with
  | refl => exact ha
  | tail _ h2 ih => exact hP _ _ h2 ih

end Star

/-- The action only makes changes that `R` allows. -/
def Within (R : σ → σ → Prop) (a : Act σ) : Prop := ∀ s, Star R s (a s).1

theorem Within.mono {R Q : σ → σ → Prop} (h : ∀ a b, R a b → Q a b) {a : Act σ} (ha : Within R a) : Within Q a :=
  fun s => (ha s).mono h

theorem joinActs_within {R : σ → σ → Prop} {as : List (Act σ)} (h : ∀ a ∈ as, Within R a) :
    ∀ errs, Within R (joinActs as errs) := by
  induction as with
  | nil => intro errs s; simp only [joinActs]; split <;> exact .refl s
  | cons a as ih =>
    intro errs s
    have ha := h a (by simp) s
    simp only [joinActs]
    split <;> rename_i s' h' <;> rw [h'] at ha
    · exact ha.trans (ih (fun a h2 => h a (by simp [h2])) _ _)
    · exact ha.trans (ih (fun a h2 => h a (by simp [h2])) _ _)
    · exact ha

theorem runEvents_within {R : σ → σ → Prop} (env : Env S) {onProp : PropCall S → Act σ}
    {onDef : String → JS → Act σ} (es : List (Event S))
    (hp : ∀ c, Event.prop c ∈ es → Within R (onProp c)) (hd : ∀ n d, Event.defn n d ∈ es → Within R (onDef n d)) :
    Within R (runEvents env onProp onDef es) := by
  induction es with
  | nil => intro s; exact .refl s
  | cons e es ih =>
    have ih := ih (fun c h => hp c (by simp [h])) (fun n d h => hd n d (by simp [h]))
    intro s
    cases e with
    | prop c =>
      have h1 := hp c (by simp) s
      simp only [runEvents]
      split <;> rename_i s' h' <;> rw [h'] at h1
      · exact h1.trans (ih _)
      · exact h1
      · exact h1
    | defn n d =>
      have h1 := hd n d (by simp) s
      simp only [runEvents]
      split <;> rename_i s' h' <;> rw [h'] at h1
      · exact h1.trans (ih _)
      · exact h1
      · exact h1

theorem foldActs_within {α : Type} {R : σ → σ → Prop} (f : α → Act σ) (xs : List α) (h : ∀ x ∈ xs, Within R (f x)) :
    Within R (foldActs f xs) := by
  induction xs with
  | nil => intro s; exact .refl s
  | cons x xs ih =>
    intro s
    have h1 := h x (by simp) s
    simp only [foldActs]
    split
    · rename_i s' h'
      rw [h'] at h1
      exact h1.trans (ih (fun y hy => h y (by simp [hy])) s')
    · exact h1

/-! ## Requests -/

/-- One change made by reflecting a request unit. -/
inductive ReqStep (v : Ver S) (env : Env S) (method : String) (cu : ContentUnit S) :
    ReqState S → ReqState S → Prop
  | body {s : ReqState S} {mime tag : String} {mapping : GoMap String} {tags : List String} {sch : JS}
      {defs : List (String × JS)} {files : Bool} {sc : S}
      (refl : reflectRequestBody env cu method mapping tag tags = .ok (some ((sch, defs), files)))
      (conv : v.conv sch = .ok sc)
      (place : (tag = "json" ∧ mime = "application/json") ∨ (tag = "formData" ∧
        mime = if files then "multipart/form-data" else "application/x-www-form-urlencoded"))
      (kind : ReflectsParams cu) :
      ReqStep v env method cu s { s with op := setRequestContent mime { schema := some sc } s.op }
  | raw {s : ReqState S} {mime : String} {sc : S} (h : RawMime cu mime) :
      ReqStep v env method cu s { s with op := setRequestContent mime { schema := some sc } s.op }
  | bodyDef {s : ReqState S} {tag : String} {mapping : GoMap String} {tags : List String} {sch : JS}
      {defs : List (String × JS)} {files : Bool} {n : String} {d : JS} {sc : S}
      (refl : reflectRequestBody env cu method mapping tag tags = .ok (some ((sch, defs), files)))
      (mem : (n, d) ∈ defs) (conv : v.conv d = .ok sc) :
      ReqStep v env method cu s { s with schemas := s.schemas.set n sc }
  | newDef {s : ReqState S} {n : String} {d : JS} {sc : S}
      (fresh : s.schemas.get? n = none) (conv : v.conv d = .ok sc) :
      ReqStep v env method cu s { s with schemas := s.schemas.set n sc }
  | param {s : ReqState S} {inn : String} {c : PropCall S} {p0 p1 : Parameter S}
      (kind : ReflectsParams cu) (loc : inn ∈ paramLocations)
      (event : Event.prop c ∈ ((cu.value env).params inn (cu.fieldMapping inn)).events)
      (processed : c.processed = true) (top : c.pathLen ≤ 1)
      (loc0 : p0.inn = inn) (name0 : p0.name = c.name) (pop : c.populate p0 = .ok p1)
      (fresh : paramExists (finalParam inn p1) s.op.parameters = false) :
      ReqStep v env method cu s
        { s with op := { s.op with parameters := s.op.parameters ++ [{ param := some (finalParam inn p1) }] } }
  | forbid {s : ReqState S} {inn : String} {js : JS}
      (kind : ReflectsParams cu) (loc : inn ∈ paramLocations) (nomap : (cu.value env).isSliceOrMap = false)
      (res : ((cu.value env).params inn (cu.fieldMapping inn)).result = .ok js) (forb : js.forbidsAdditional = true) :
      ReqStep v env method cu s { s with op := { s.op with ext := s.op.ext.set ("x-forbid-unknown-" ++ inn) true } }

section
variable (v : Ver S) (env : Env S) (method : String) (cu : ContentUnit S)

theorem stringRequestBody_within {mime format : String} (h : RawMime cu mime) :
    Within (ReqStep v env method cu) (stringRequestBody v mime format) := by
  intro s
  simp only [stringRequestBody]
  split
  · exact .one (.raw h)
  · exact .refl s

theorem parseRawRequestBody_within (hc : cu.contentType = "") :
    Within (ReqStep v env method cu) (parseRawRequestBody v cu) := by
  intro s
  simp only [parseRawRequestBody]
  split
  · exact .refl s
  · rename_i value hv
    exact foldActs_within (fun tag => stringRequestBody v tag "") value.contentTypes
      (fun tag ht => stringRequestBody_within v env method cu (.inl ⟨hc, value, hv, ht⟩)) s

theorem addBodyDefinitions_steps {tag : String} {mapping : GoMap String} {tags : List String} {sch : JS}
    {defs : List (String × JS)} {files : Bool}
    (refl : reflectRequestBody env cu method mapping tag tags = .ok (some ((sch, defs), files))) :
    ∀ (ds : List (String × JS)), (∀ p ∈ ds, p ∈ defs) → ∀ s : ReqState S,
      Star (ReqStep v env method cu) s { s with schemas := (addBodyDefinitions v ds s.schemas).1 } := by
  intro ds
  induction ds with
  | nil => intro _ s; exact .refl s
  | cons p ds ih =>
    intro hds s
    obtain ⟨n, d⟩ := p
    simp only [addBodyDefinitions]
    split
    · rename_i sc hc
      have step : ReqStep v env method cu s { s with schemas := s.schemas.set n sc } :=
        .bodyDef refl (hds _ (by simp)) hc
      exact (Star.one step).trans (ih (fun q hq => hds q (by simp [hq])) { s with schemas := s.schemas.set n sc })
    · exact .refl s
    · exact .refl s

theorem parseRequestBody_within {mime tag : String} {mapping : GoMap String} {tags : List String}
    (hk : ReflectsParams cu)
    (h : (tag = "json" ∧ mime = "application/json") ∨
      (tag = "formData" ∧ mime = "application/x-www-form-urlencoded")) :
    Within (ReqStep v env method cu) (parseRequestBody v env cu method mime mapping tag tags) := by
  intro s
  simp only [parseRequestBody]
  split
  · exact .refl s
  · exact .refl s
  · rename_i sch defs files hr
    split
    · exact .refl s
    · exact .refl s
    · rename_i sc hc
      have hds := addBodyDefinitions_steps v env method cu hr defs (fun _ h => h) s
      split <;> rename_i m hm <;> rw [hm] at hds
      · exact hds
      · exact hds
      · refine .tail hds (ReqStep.body (s := { s with schemas := m }) hr hc ?_ hk)
        rcases h with ⟨h1, h2⟩ | ⟨h1, h2⟩
        · left; exact ⟨h1, by simp [h2]⟩
        · right; exact ⟨h1, by simp [h2]⟩

theorem collectDefinition_steps (n : String) (d : JS) (s : ReqState S) :
    Star (ReqStep v env method cu) s { s with schemas := (collectDefinition v n d s.schemas).1 } := by
  simp only [collectDefinition]
  split
  · exact .refl s
  · rename_i hn
    split
    · rename_i sc hc
      exact .one (.newDef hn hc)
    · exact .refl s

theorem collectDefinitions_steps (ds : List (String × JS)) :
    ∀ s : ReqState S, Star (ReqStep v env method cu) s { s with schemas := (collectDefinitions v ds s.schemas).1 } := by
  induction ds with
  | nil => intro s; exact .refl s
  | cons p ds ih =>
    intro s
    obtain ⟨n, d⟩ := p
    have h1 := collectDefinition_steps v env method cu n d s
    simp only [collectDefinitions]
    split
    · rename_i m hm
      rw [hm] at h1
      exact h1.trans (ih { s with schemas := m })
    · exact h1

theorem applyCollectionFormat_inn (cf : String) (p : Parameter S) : (applyCollectionFormat cf p).inn = p.inn := by
  unfold applyCollectionFormat
  repeat' split
  all_goals rfl

theorem applyCollectionFormat_name (cf : String) (p : Parameter S) : (applyCollectionFormat cf p).name = p.name := by
  unfold applyCollectionFormat
  repeat' split
  all_goals rfl

theorem buildParameter_steps (inn : String) (c : PropCall S) (s : ReqState S) :
    Star (ReqStep v env method cu) s { s with schemas := (buildParameter v inn c s.schemas).1 } := by
  have hd := collectDefinitions_steps v env method cu c.inner.1 s
  simp only [buildParameter]
  split
  · exact .refl s
  · exact .refl s
  · split
    · split
      · rename_i m hm
        rw [hm] at hd
        split
        · exact hd
        · split <;> exact hd
      · rename_i m out hm h2
        rw [h2] at hd
        exact hd
    · split <;> exact .refl s

theorem buildParameter_fields {inn : String} {c : PropCall S} {m m' : GoMap S} {out : Out} {p : Parameter S}
    (h : buildParameter v inn c m = (m', out, some p)) : out = .ok ∧ p.inn = inn ∧ p.name = c.name := by
  simp only [buildParameter] at h
  split at h
  · cases h
  · cases h
  · split at h
    · split at h
      · split at h
        · cases h
        · split at h
          · cases h
          · cases h
          · cases h
            exact ⟨rfl, applyCollectionFormat_inn _ _, applyCollectionFormat_name _ _⟩
      · cases h
    · split at h
      · cases h
      · cases h; exact ⟨rfl, applyCollectionFormat_inn _ _, applyCollectionFormat_name _ _⟩
      · cases h; exact ⟨rfl, applyCollectionFormat_inn _ _, applyCollectionFormat_name _ _⟩

theorem onParameter_within {inn : String} {c : PropCall S} (hk : ReflectsParams cu) (loc : inn ∈ paramLocations)
    (event : Event.prop c ∈ ((cu.value env).params inn (cu.fieldMapping inn)).events) :
    Within (ReqStep v env method cu) (onParameter v inn c) := by
  intro s
  have hb := buildParameter_steps v env method cu inn c s
  simp only [onParameter]
  split
  · exact .refl s
  · rename_i hg
    simp only [Bool.or_eq_true, Bool.not_eq_true', decide_eq_true_eq, not_or, Bool.not_eq_false, Nat.not_lt] at hg
    split
    · rename_i m p hm
      rw [hm] at hb
      obtain ⟨-, h1, h2⟩ := buildParameter_fields v hm
      split
      · exact hb
      · rename_i p1 hp
        split
        · exact hb
        · rename_i hex
          refine .tail hb ?_
          exact ReqStep.param (s := { s with schemas := m }) hk loc event hg.1 hg.2 h1 h2 hp (by simpa using hex)
    · rename_i m out _ h2 hm
      rw [hm] at hb
      exact hb

theorem onReqDefinition_within (n : String) (d : JS) :
    Within (ReqStep v env method cu) (onReqDefinition v n d) := by
  intro s
  exact collectDefinition_steps v env method cu n d s

theorem parseParametersIn_within {inn : String} (hk : ReflectsParams cu) (loc : inn ∈ paramLocations) :
    Within (ReqStep v env method cu) (parseParametersIn v env cu inn) := by
  intro s
  simp only [parseParametersIn, input_eq]
  split
  · exact .refl s
  · rename_i hs
    have hr := runEvents_within (R := ReqStep v env method cu) env
      (onProp := onParameter v inn) (onDef := onReqDefinition v)
      ((cu.value env).params inn (cu.fieldMapping inn)).events
      (fun c hc => onParameter_within v env method cu hk loc hc)
      (fun n d _ => onReqDefinition_within v env method cu n d) s
    split
    · rename_i s' h'
      rw [h'] at hr
      split
      · exact hr
      · rename_i js hjs
        split
        · rename_i hf
          exact .tail hr (.forbid hk loc (by simpa using hs) hjs hf)
        · exact hr
    · exact hr

theorem parseParameters_within (hk : ReflectsParams cu) :
    Within (ReqStep v env method cu) (parseParameters v env cu) := by
  refine joinActs_within ?_ []
  intro a ha
  simp only [List.mem_cons, List.not_mem_nil, or_false] at ha
  rcases ha with rfl | rfl | rfl | rfl <;>
    exact parseParametersIn_within v env method cu hk (by simp [paramLocations])

/-- Reflecting a unit only makes the listed changes. -/
theorem reflectUnit_within : Within (ReqStep v env method cu) (reflectUnit v env method cu) := by
  intro s
  have form : ReflectsParams cu → Within (ReqStep v env method cu) (parseRequestBody v env cu method
      "application/x-www-form-urlencoded" (cu.fieldMapping "formData") "formData" ["form"]) :=
    fun hk => parseRequestBody_within v env method cu hk (.inr ⟨rfl, rfl⟩)
  have json : ReflectsParams cu → Within (ReqStep v env method cu)
      (parseRequestBody v env cu method "application/json" [] "json" []) :=
    fun hk => parseRequestBody_within v env method cu hk (.inl ⟨rfl, rfl⟩)
  have params := parseParameters_within v env method cu
  simp only [reflectUnit]
  split
  · rename_i hc
    have hk : ReflectsParams cu := by simp [ReflectsParams, hc]
    have hj := joinActs_within (R := ReqStep v env method cu)
      (as := [parseRequestBody v env cu method "application/x-www-form-urlencoded" (cu.fieldMapping "formData")
        "formData" ["form"], parseParameters v env cu, parseRequestBody v env cu method "application/json" [] "json" []])
      (by
        intro a ha
        simp only [List.mem_cons, List.not_mem_nil, or_false] at ha
        rcases ha with rfl | rfl | rfl
        · exact form hk
        · exact params hk
        · exact json hk) [] s
    split
    · rename_i s' h'
      rw [h'] at hj
      exact hj.trans (parseRawRequestBody_within v env method cu hc s')
    · exact hj
  · rename_i h0
    split
    · rename_i hc
      have hk : ReflectsParams cu := by simp [ReflectsParams, hc]
      refine joinActs_within ?_ [] s
      intro a ha
      simp only [List.mem_cons, List.not_mem_nil, or_false] at ha
      rcases ha with rfl | rfl
      · exact params hk
      · exact json hk
    · rename_i h1
      split
      · rename_i hc
        have hk : ReflectsParams cu := by
          rcases hc with hc | hc <;> simp [ReflectsParams, hc]
        refine joinActs_within ?_ [] s
        intro a ha
        simp only [List.mem_cons, List.not_mem_nil, or_false] at ha
        rcases ha with rfl | rfl
        · exact form hk
        · exact params hk
      · rename_i h2
        refine stringRequestBody_within v env method cu (.inr ⟨?_, rfl⟩) s
        intro hk
        simp only [ReflectsParams, List.mem_cons, List.not_mem_nil, or_false] at hk
        rcases hk with h | h | h | h
        · exact h0 h
        · exact h1 h
        · exact h2 (.inl h)
        · exact h2 (.inr h)

end

/-- One change made by `setupRequest`: by reflecting one of the units, or by finishing it. -/
inductive SetupStep (v : Ver S) (env : Env S) (method : String) (cus : List (ContentUnit S)) :
    ReqState S → ReqState S → Prop
  | reflect {s s' : ReqState S} {cu : ContentUnit S} (mem : cu ∈ cus) (h : ReqStep v env method cu s s') :
      SetupStep v env method cus s s'
  | finish {s : ReqState S} {cu : ContentUnit S} (mem : cu ∈ cus) :
      SetupStep v env method cus s { s with op := finishRequest cu s.op }

/-- Whatever its outcome, `setupRequest` only makes the listed changes. -/
theorem setupRequest_within (v : Ver S) (env : Env S) (method : String) (cus : List (ContentUnit S)) :
    Within (SetupStep v env method cus) (setupRequest v env method cus) := by
  have key : ∀ cus' : List (ContentUnit S), (∀ cu ∈ cus', cu ∈ cus) →
      Within (SetupStep v env method cus) (setupRequest v env method cus') := by
    intro cus'
    induction cus' with
    | nil => intro _ s; exact .refl s
    | cons cu cus' ih =>
      intro hm s
      have hu := (reflectUnit_within v env method cu s).mono
        (Q := SetupStep v env method cus) (fun a b h => .reflect (hm cu (by simp)) h)
      simp only [setupRequest]
      split
      · rename_i s' h'
        rw [h'] at hu
        exact (hu.tail (.finish (hm cu (by simp)))).trans (ih (fun c hc => hm c (by simp [hc])) _)
      · exact hu
  exact key cus (fun _ h => h)

end Verif
