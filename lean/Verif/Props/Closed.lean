import Verif.Spec.Closed
import Verif.Lemmas.PublishHistory30
import Verif.Lemmas.PublishHistory31
import Verif.Props.Stored
import Verif.Props.ResponseStored
import Verif.Props.Publish30
import Verif.Props.Refs31Exact

/-!
# References of reflected documents can be followed (C107)
-/

namespace Verif.Closed
open Conform ParamSpec

variable {S : Type} {refers : S → String → Prop}

/-! ## More schemas are accepted -/

section Mono
variable {pl : Places} {A B : Role → S → Prop}

theorem refOr_mono {α : Type} {P Q : α → Prop} (h : ∀ a, P a → Q a) {r : Option String} {a : Option α} (hr : RefOr P r a) :
    RefOr Q r a := by
  rcases hr with hr | ⟨a, h1, h2, h3⟩
  · exact .inl hr
  · exact .inr ⟨a, h1, h2, h a h3⟩

theorem mediaOk_mono (h : ∀ r s, A r s → B r s) {mt : MediaType S} (hm : MediaOk A mt) : MediaOk B mt :=
  ⟨hm.1, fun s e => h _ _ (hm.2 s e)⟩

theorem contentOk_mono (h : ∀ r s, A r s → B r s) {m : GoMap (MediaType S)} (hm : ContentOk A m) : ContentOk B m :=
  ⟨hm.1, fun k mt e => mediaOk_mono h (hm.2 k mt e)⟩

theorem paramOk_mono (h : ∀ r s, A r s → B r s) {p : Parameter S} (hp : ParamOk pl A p) : ParamOk pl B p := by
  refine ⟨hp.place, hp.required, hp.style, hp.name, ?_, hp.alone⟩
  rcases hp.value with ⟨s, h1, h2, h3⟩ | ⟨h1, mime, mt, h2, h3⟩
  · exact .inl ⟨s, h1, h _ _ h2, h3⟩
  · exact .inr ⟨h1, mime, mt, h2, mediaOk_mono h h3⟩

theorem responseOk_mono (h : ∀ r s, A r s → B r s) {r : Response S} (hr : ResponseOk A r) : ResponseOk B r :=
  ⟨hr.headerKeys, fun k hd e => refOr_mono (fun _ ⟨s, h1, h2⟩ => ⟨s, h1, h _ _ h2⟩) (hr.headers k hd e),
    contentOk_mono h hr.content⟩

theorem operationOk_mono (h : ∀ r s, A r s → B r s) {key : String → Prop} {op : Operation S}
    (ho : OperationOk pl A key op) : OperationOk pl B key op where
  parameters p hp := refOr_mono (fun _ => paramOk_mono h) (ho.parameters p hp)
  body b hb := refOr_mono (fun _ hq => ⟨hq.1, contentOk_mono h hq.2⟩) (ho.body b hb)
  default r hr := refOr_mono (fun _ => responseOk_mono h) (ho.default r hr)
  codeKeys := ho.codeKeys
  codes k r hr := ⟨(ho.codes k r hr).1, refOr_mono (fun _ => responseOk_mono h) (ho.codes k r hr).2⟩
  extKeys := ho.extKeys
  ext := ho.ext

theorem published30_mono (h : ∀ r s, A r s → B r s) {d : V30.Spec S} (hd : Pub30.Published A d) : Pub30.Published B d where
  pathKeys := hd.pathKeys
  paths k p hp := by
    obtain ⟨h1, h2, h3, h4⟩ := hd.paths k p hp
    exact ⟨h1, h2, fun q hq => refOr_mono (fun _ => paramOk_mono h) (h3 q hq),
      fun m op ho => ⟨(h4 m op ho).1, operationOk_mono h (h4 m op ho).2⟩⟩
  schemaKeys := hd.schemaKeys
  schemas k s hs := ⟨(hd.schemas k s hs).1, h _ _ (hd.schemas k s hs).2⟩
  securityKeys := hd.securityKeys
  security := hd.security

theorem itemOk_mono (h : ∀ r s, A r s → B r s) {p : V31.PathItem S} (hp : Pub31.ItemOk A p) : Pub31.ItemOk B p :=
  ⟨fun q hq => refOr_mono (fun _ => paramOk_mono h) (hp.parameters q hq), fun op ho => operationOk_mono h (hp.ops op ho)⟩

theorem published31_mono (h : ∀ r s, A r s → B r s) {d : V31.Spec S} (hd : Pub31.Published A d) : Pub31.Published B d where
  openapi := hd.openapi
  pathKeys := hd.pathKeys
  paths m hm k p hp := ⟨(hd.paths m hm k p hp).1, itemOk_mono h (hd.paths m hm k p hp).2⟩
  webhookKeys := hd.webhookKeys
  webhooks k p hp := itemOk_mono h (hd.webhooks k p hp)
  schemaKeys := hd.schemaKeys
  schemas k s hs := ⟨(hd.schemas k s hs).1, h _ _ (hd.schemas k s hs).2⟩
  securityKeys := hd.securityKeys
  security := hd.security

end Mono

theorem within_mono {a b : String → Prop} (h : ∀ n, a n → b n) (r : Role) (s : S) (hs : Within refers a r s) :
    Within refers b r s := fun n hn => h n (hs n hn)

/-! ## A successful reflection -/

theorem setup_reported {v : Ver S} {env : Env S} {oc : OpCtx S} {s s' : ReqState S} (h : setupOC v env oc s = (s', .ok)) :
    (∀ n, Has s.schemas n → Has s'.schemas n) ∧ ∀ n, Reported env oc n → Has s'.schemas n := by
  simp only [setupOC] at h
  split at h
  · cases h
  · cases h
  · rename_i s1 h1
    split at h
    · cases h
    · split at h
      · cases h
      · have h2 : setupResponse v env oc.method oc.resp s1 = (s', .ok) := h
        have hn := setupResponse_names (v := v) (env := env) (method := oc.method) (cus := oc.resp) s1
        rw [h2] at hn
        refine ⟨fun n hm => hn n (setupStep_names h1 n hm), ?_⟩
        rintro n (⟨cu, hcu, hr⟩ | ⟨cu, hcu, value, d, hj, hd⟩)
        · exact hn n (C54_request_definitions v env oc.method oc.req s s1 h1 cu hcu n hr)
        · exact C54_response_definitions v env oc.method oc.resp s1 s' h2 cu hcu value hj n d hd

theorem add30_schemas (d : V30.Spec S) (m p : String) (op : Operation S) : (d.addOperation m p op).1.schemas = d.schemas := by
  simp only [V30.Spec.addOperation, V30.Spec.setupOperation]
  repeat' split
  all_goals rfl

theorem setup30_schemas (d : V30.Spec S) (m p : String) (fs : List (Setup S)) :
    (d.setupOperation m p fs).1.schemas = d.schemas := by
  simp only [V30.Spec.setupOperation]
  repeat' split
  all_goals rfl

theorem edit31_schemas (d : V31.Spec S) (p m : String) (op : Operation S) : (d.editInPlace p m op).schemas = d.schemas := by
  simp only [V31.Spec.editInPlace]
  split <;> rfl

theorem setup31_schemas (d : V31.Spec S) (m p : String) (fs : List (Setup S)) :
    (d.setupOperation m p fs).1.schemas = d.schemas := by
  simp only [V31.Spec.setupOperation]
  repeat' split
  all_goals first
    | rfl
    | exact edit31_schemas _ _ _ _

theorem add31_schemas (d : V31.Spec S) (m p : String) (op : Operation S) : (d.addOperation m p op).1.schemas = d.schemas := by
  simp only [V31.Spec.addOperation]
  split
  · rfl
  · rfl
  · rw [setup31_schemas]; rfl

theorem webhook31_schemas (d : V31.Spec S) (m n : String) (op : Operation S) : (d.addWebhook m n op).1.schemas = d.schemas := by
  simp only [V31.Spec.addWebhook]
  repeat' split
  all_goals rfl

/-- Conversion of schemas makes no references. -/
def Keeps (v : Ver S) (refers : S → String → Prop) : Prop :=
  ∀ names, Translates v (Within Refers names) (Within refers names)

theorem reflected30 {v : Ver S} (hv : Keeps v refers) {d : V30.Spec S}
    (h : Pub30.Published (Within refers (Has d.schemas)) d) {env : Env S} {oc : OpCtx S}
    (hc : Complete Pub30.places refers d.schemas env oc) (hp : Pub30.Rooted oc.path)
    (hs : (V30.addOperation v env d oc).2.2 = .ok) :
    Pub30.Published (Within refers (Has (V30.addOperation v env d oc).1.schemas)) (V30.addOperation v env d oc).1 := by
  cases hr : setupOC v env oc ⟨d.schemas, oc.op⟩ with
  | mk s out =>
    cases out with
    | ok =>
      obtain ⟨h1, h2⟩ := setup_reported hr
      have e : (V30.addOperation v env d oc).1.schemas = s.schemas := by
        simp only [V30.addOperation, hr]
        exact add30_schemas _ _ _ _
      rw [e]
      exact Pub30.published_reflect (hv _) (published30_mono (within_mono h1) h) (hc _ h1 h2) hp
    | err e => simp only [V30.addOperation, hr] at hs; cases hs
    | panic => simp only [V30.addOperation, hr] at hs; cases hs

theorem reflected31 {v : Ver S} (hv : Keeps v refers) {d : V31.Spec S}
    (h : Pub31.Published (Within refers (Has d.schemas)) d) {env : Env S} {oc : OpCtx S}
    (hc : Complete Pub31.places refers d.schemas env oc) (hp : Pub30.Rooted oc.path)
    (hs : (V31.addOperation v env d oc).2.2 = .ok) :
    Pub31.Published (Within refers (Has (V31.addOperation v env d oc).1.schemas)) (V31.addOperation v env d oc).1 := by
  cases hr : setupOC v env oc ⟨d.schemas, oc.op⟩ with
  | mk s out =>
    cases out with
    | ok =>
      obtain ⟨h1, h2⟩ := setup_reported hr
      have e : (V31.addOperation v env d oc).1.schemas = s.schemas := by
        simp only [V31.addOperation, hr]
        exact add31_schemas _ _ _ _
      rw [e]
      exact Pub31.published_reflect (hv _) (published31_mono (within_mono h1) h) (hc _ h1 h2) hp
    | err e => simp only [V31.addOperation, hr] at hs; cases hs
    | panic => simp only [V31.addOperation, hr] at hs; cases hs

theorem reflectedWebhook31 {v : Ver S} (hv : Keeps v refers) {d : V31.Spec S}
    (h : Pub31.Published (Within refers (Has d.schemas)) d) {env : Env S} {oc : OpCtx S}
    (hc : Complete Pub31.places refers d.schemas env oc) (hs : (V31.addWebhook v env d oc).2.2 = .ok) :
    Pub31.Published (Within refers (Has (V31.addWebhook v env d oc).1.schemas)) (V31.addWebhook v env d oc).1 := by
  cases hr : setupOC v env oc ⟨d.schemas, oc.op⟩ with
  | mk s out =>
    cases out with
    | ok =>
      obtain ⟨h1, h2⟩ := setup_reported hr
      have e : (V31.addWebhook v env d oc).1.schemas = s.schemas := by
        simp only [V31.addWebhook, hr]
        exact webhook31_schemas _ _ _ _
      rw [e]
      exact Pub31.published_reflectWebhook (hv _) (published31_mono (within_mono h1) h) (hc _ h1 h2)
    | err e => simp only [V31.addWebhook, hr] at hs; cases hs
    | panic => simp only [V31.addWebhook, hr] at hs; cases hs

theorem grown30 {v : Ver S} (hv : Keeps v refers) {d : V30.Spec S} (h : Grown30 v refers d) :
    Pub30.Published (Within refers (Has d.schemas)) d := by
  induction h with
  | new => exact ⟨by simp [Keys], by simp, by simp [Keys], by simp, by simp [Keys], by simp⟩
  | title _ _ h => exact ⟨h.pathKeys, h.paths, h.schemaKeys, h.schemas, h.securityKeys, h.security⟩
  | description _ _ h => exact ⟨h.pathKeys, h.paths, h.schemaKeys, h.schemas, h.securityKeys, h.security⟩
  | version _ _ h => exact ⟨h.pathKeys, h.paths, h.schemaKeys, h.schemas, h.securityKeys, h.security⟩
  | reflect env oc _ hc hp hs h => exact reflected30 hv h hc hp hs
  | add m p op _ ho hp h => rw [add30_schemas]; exact Pub30.published_add h ho hp
  | setup m p fs _ hf hp h => rw [setup30_schemas]; exact Pub30.published_setup h hf hp
  | basic n t _ hn h => exact Pub30.published_security h hn (by intro n i t e; cases e)
  | bearer n f t _ hn h => exact Pub30.published_security h hn (by intro n i t e; cases e)
  | apiKey n f p t _ hn hp h => exact Pub30.published_security h hn (by intro n i t e; cases e; exact hp)

theorem grown31 {v : Ver S} (hv : Keeps v refers) {d : V31.Spec S} (h : Grown31 v refers d) :
    Pub31.Published (Within refers (Has d.schemas)) d := by
  induction h with
  | new => exact ⟨rfl, by simp, by simp, by simp [Keys], by simp, by simp [Keys], by simp, by simp [Keys], by simp⟩
  | title _ _ h => exact ⟨h.openapi, h.pathKeys, h.paths, h.webhookKeys, h.webhooks, h.schemaKeys, h.schemas, h.securityKeys, h.security⟩
  | description _ _ h => exact ⟨h.openapi, h.pathKeys, h.paths, h.webhookKeys, h.webhooks, h.schemaKeys, h.schemas, h.securityKeys, h.security⟩
  | version _ _ h => exact ⟨h.openapi, h.pathKeys, h.paths, h.webhookKeys, h.webhooks, h.schemaKeys, h.schemas, h.securityKeys, h.security⟩
  | context _ h => exact Pub31.published_ens h
  | reflect env oc _ hc hp hs h => exact reflected31 hv h hc hp hs
  | reflectWebhook env oc _ hc hs h => exact reflectedWebhook31 hv h hc hs
  | add m p op _ ho hp h => rw [add31_schemas]; exact Pub31.published_add h ho hp
  | webhook m n op _ ho h => rw [webhook31_schemas]; exact Pub31.published_webhook h ho
  | setup m p fs _ hf hp h => rw [setup31_schemas]; exact Pub31.published_setup h hf hp
  | basic n t _ hn h => exact Pub31.published_security h hn (by intro n i t e; cases e)
  | bearer n f t _ hn h => exact Pub31.published_security h hn (by intro n i t e; cases e)
  | apiKey n f p t _ hn hp h => exact Pub31.published_security h hn (by intro n i t e; cases e; exact hp)

/-! ## The schemas of a document -/

section Occurs
variable {pl : Places} {P : S → Prop}

theorem occurs_content {m : GoMap (MediaType S)} (h : ContentOk (Always P) m) {s : S} (ho : OccursContent m s) : P s := by
  obtain ⟨k, mt, hk, hs⟩ := ho
  exact (h.2 k mt hk).2 s hs

theorem occurs_param {p : ParamOrRef S} (h : RefOr (ParamOk pl (Always P)) p.ref p.param) {s : S} (ho : OccursParam p s) :
    P s := by
  obtain ⟨q, hq, ho⟩ := ho
  rcases h with ⟨_, _, e⟩ | ⟨a, _, e, ha⟩
  · rw [hq] at e; cases e
  · rw [hq] at e; cases e
    rcases ha.value with ⟨s', h1, h2, h3⟩ | ⟨h1, mime, mt, h2, h3⟩
    · rcases ho with ho | ⟨k, mt, hk, _⟩
      · rw [h1] at ho; cases ho; exact h2
      · rw [h3] at hk; cases hk
    · rcases ho with ho | ⟨k, mt', hk, hs⟩
      · rw [h1] at ho; cases ho
      · rw [h2] at hk
        cases List.mem_singleton.1 hk
        exact h3.2 s hs

theorem occurs_response {r : ResponseOrRef S} (h : RefOr (ResponseOk (Always P)) r.ref r.response) {s : S}
    (ho : OccursResponse r s) : P s := by
  obtain ⟨q, hq, ho⟩ := ho
  rcases h with ⟨_, _, e⟩ | ⟨a, _, e, ha⟩
  · rw [hq] at e; cases e
  · rw [hq] at e; cases e
    rcases ho with ho | ⟨k, hd, x, hk, hx, hs⟩
    · exact occurs_content ha.content ho
    · rcases ha.headers k hd hk with ⟨_, _, e⟩ | ⟨b, _, e, s', h1, h2⟩
      · rw [hx] at e; cases e
      · rw [hx] at e; cases e
        rw [h1] at hs; cases hs; exact h2

theorem occurs_operation {key : String → Prop} {op : Operation S} (h : OperationOk pl (Always P) key op) {s : S}
    (ho : OccursOperation op s) : P s := by
  rcases ho with ⟨p, hp, ho⟩ | ⟨b, q, hb, hq, ho⟩ | ⟨r, hr, ho⟩ | ⟨k, r, hr, ho⟩
  · exact occurs_param (h.parameters p hp) ho
  · rcases h.body b hb with ⟨_, _, e⟩ | ⟨a, _, e, ha⟩
    · rw [hq] at e; cases e
    · rw [hq] at e; cases e; exact occurs_content ha.2 ho
  · exact occurs_response (h.default r hr) ho
  · exact occurs_response (h.codes k r hr).2 ho

theorem occurs_item {p : V31.PathItem S} (h : Pub31.ItemOk (Always P) p) {s : S} (ho : OccursItem p s) : P s := by
  rcases ho with ⟨q, hq, ho⟩ | ⟨op, hm, ho⟩
  · exact occurs_param (h.parameters q hq) ho
  · exact occurs_operation (h.ops op hm) ho

end Occurs

theorem followed30 {v : Ver S} (hv : Keeps v refers) {d : V30.Spec S} (h : Grown30 v refers d) (s : S) (ho : Occurs30 d s)
    (n : String) (hn : refers s n) : Has d.schemas n := by
  have hp := grown30 hv h
  refine (?_ : ∀ n, refers s n → Has d.schemas n) n hn
  rcases ho with ⟨k, hk⟩ | ⟨k, p, hk, ⟨q, hq, ho⟩ | ⟨m, op, hm, ho⟩⟩
  · exact (hp.schemas k s hk).2
  · exact occurs_param ((hp.paths k p hk).2.2.1 q hq) ho
  · exact occurs_operation ((hp.paths k p hk).2.2.2 m op hm).2 ho

theorem followed31 {v : Ver S} (hv : Keeps v refers) {d : V31.Spec S} (h : Grown31 v refers d) (s : S) (ho : Occurs31 d s)
    (n : String) (hn : refers s n) : Has d.schemas n := by
  have hp := grown31 hv h
  refine (?_ : ∀ n, refers s n → Has d.schemas n) n hn
  rcases ho with ⟨k, hk⟩ | ⟨m, k, p, hm, hk, ho⟩ | ⟨k, p, hk, ho⟩
  · exact (hp.schemas k s hk).2
  · exact occurs_item (hp.paths m hm k p hk).2 ho
  · exact occurs_item (hp.webhooks k p hk) ho

/-! ## Conversion to schemas of 3.0 -/

theorem fromJSList_mem : ∀ {js : List JS} {ss : List V30.OS}, V30.fromJSList js = some ss → ∀ {s}, s ∈ ss →
    ∃ j ∈ js, V30.fromJS j = some s
  | [], _, h, s, hs => by simp only [V30.fromJSList, Option.some.injEq] at h; subst h; cases hs
  | j :: js, ss, h, s, hs => by
    simp only [V30.fromJSList, Option.bind_eq_bind, Option.bind_eq_some_iff, Option.some.injEq] at h
    obtain ⟨s1, h1, ss1, h2, rfl⟩ := h
    rcases List.mem_cons.1 hs with rfl | hs
    · exact ⟨j, by simp, h1⟩
    · obtain ⟨k, hk, e⟩ := fromJSList_mem h2 hs
      exact ⟨k, by simp [hk], e⟩

theorem fromJSProps_mem : ∀ {js : List (String × JS)} {ss : List (String × V30.OS)}, V30.fromJSProps js = some ss →
    ∀ {s}, s ∈ ss.map (·.2) → ∃ j ∈ js.map (·.2), V30.fromJS j = some s
  | [], _, h, s, hs => by simp only [V30.fromJSProps, Option.some.injEq] at h; subst h; cases hs
  | (n, j) :: js, ss, h, s, hs => by
    simp only [V30.fromJSProps, Option.bind_eq_bind, Option.bind_eq_some_iff, Option.some.injEq] at h
    obtain ⟨s1, h1, ss1, h2, rfl⟩ := h
    rcases List.mem_cons.1 hs with rfl | hs
    · exact ⟨j, by simp, h1⟩
    · obtain ⟨k, hk, e⟩ := fromJSProps_mem h2 hs
      exact ⟨k, by rw [List.map_cons]; exact List.mem_cons_of_mem _ hk, e⟩

theorem fromJSOpt_mem {j : Option JS} {o : Option V30.OS} (h : V30.fromJSOpt j = some o) {s : V30.OS} (hs : s ∈ o.toList) :
    ∃ k ∈ j.toList, V30.fromJS k = some s := by
  cases j with
  | none => simp only [V30.fromJSOpt, Option.some.injEq] at h; subst h; cases hs
  | some j =>
    simp only [V30.fromJSOpt, Option.bind_eq_bind, Option.bind_eq_some_iff, Option.some.injEq] at h
    obtain ⟨s1, h1, rfl⟩ := h
    simp only [Option.toList_some, List.mem_singleton] at hs
    subst hs
    exact ⟨j, by simp, h1⟩

theorem fromJSAddl_mem {j : Option JS} {o : Option V30.OS} (h : V30.fromJSAddl j = some o) {s : V30.OS} (hs : s ∈ o.toList) :
    ∃ k ∈ j.toList, V30.fromJS k = some s := by
  cases j with
  | none => simp only [V30.fromJSAddl, Option.some.injEq] at h; subst h; cases hs
  | some j =>
    cases j with
    | bool b => simp only [V30.fromJSAddl, Option.some.injEq] at h; subst h; cases hs
    | _ =>
      simp only [V30.fromJSAddl, Option.bind_eq_bind, Option.bind_eq_some_iff, Option.some.injEq] at h
      obtain ⟨s1, h1, rfl⟩ := h
      simp only [Option.toList_some, List.mem_singleton] at hs
      subst hs
      exact ⟨_, by simp, h1⟩

theorem refers30_plain {f : V30.OFlat} {n : String} {b : Option Bool} :
    ¬ Refers30 (.schema f none [] [] [] none [] b none) n := by
  intro h
  cases h with
  | part ht _ => simp [parts30] at ht

theorem refers_of_fromJS {s : V30.OS} {n : String} (h : Refers30 s n) : ∀ {j : JS}, V30.fromJS j = some s → Refers j n := by
  induction h with
  | @here n =>
    intro j hj
    cases j with
    | zero => simp [V30.fromJS] at hj
    | bool b => simp only [V30.fromJS, V30.fromBool] at hj; split at hj <;> cases hj
    | obj flat not allOf oneOf anyOf items itemsArr props addl others =>
      simp only [V30.fromJS] at hj
      split at hj
      · rename_i r hr
        split at hj
        · cases hj
        · cases hj; exact .here hr
      · simp only [Option.bind_eq_bind, Option.bind_eq_some_iff] at hj
        obtain ⟨_, _, _, _, _, _, _, _, _, _, _, _, _, _, e⟩ := hj
        cases e
  | @part s t n ht h ih =>
    intro j hj
    cases j with
    | zero => simp [V30.fromJS] at hj
    | bool b =>
      simp only [V30.fromJS, V30.fromBool, Option.some.injEq] at hj
      subst hj
      cases b
      · simp [parts30] at ht
        subst ht
        exact absurd h refers30_plain
      · simp [parts30] at ht
    | obj flat not allOf oneOf anyOf items itemsArr props addl others =>
      simp only [V30.fromJS] at hj
      split at hj
      · rename_i r hr
        split at hj
        · cases hj
          simp only [parts30, Option.toList_none, List.nil_append, List.append_nil, List.map_nil, List.mem_cons,
            List.not_mem_nil, or_false] at ht
          rcases ht with rfl | rfl
          · exact absurd h refers30_plain
          · cases h with
            | here => exact .here hr
            | part ht _ => simp [parts30] at ht
        · cases hj
          simp [parts30] at ht
      · simp only [Option.bind_eq_bind, Option.bind_eq_some_iff] at hj
        obtain ⟨not', h1, oneOf', h2, anyOf', h3, allOf', h4, ap, h5, items', h6, props', h7, e⟩ := hj
        cases e
        suffices ∃ k ∈ parts (.obj flat not allOf oneOf anyOf items itemsArr props addl others), V30.fromJS k = some t by
          obtain ⟨k, hk, hkt⟩ := this
          exact .part hk (ih hkt)
        simp only [parts30, List.mem_append] at ht
        simp only [parts, List.mem_append]
        rcases ht with (((((ht | ht) | ht) | ht) | ht) | ht) | ht
        · obtain ⟨k, hk, e⟩ := fromJSOpt_mem h1 ht; exact ⟨k, by simp [hk], e⟩
        · obtain ⟨k, hk, e⟩ := fromJSList_mem h4 ht; exact ⟨k, by simp [hk], e⟩
        · obtain ⟨k, hk, e⟩ := fromJSList_mem h2 ht; exact ⟨k, by simp [hk], e⟩
        · obtain ⟨k, hk, e⟩ := fromJSList_mem h3 ht; exact ⟨k, by simp [hk], e⟩
        · obtain ⟨k, hk, e⟩ := fromJSOpt_mem h6 ht; exact ⟨k, by simp [hk], e⟩
        · obtain ⟨k, hk, e⟩ := fromJSProps_mem h7 ht; exact ⟨k, by simp only [hk, true_or, or_true], e⟩
        · obtain ⟨k, hk, e⟩ := fromJSAddl_mem h5 ht; exact ⟨k, by simp [hk], e⟩

theorem refers_nullable {f : V30.OFlat} {not : Option V30.OS} {allOf oneOf anyOf : List V30.OS} {items : Option V30.OS}
    {props : GoMap V30.OS} {b : Option Bool} {addl : Option V30.OS} {n : String} {x : Option Bool}
    (h : Refers30 (.schema { f with nullable := x } not allOf oneOf anyOf items props b addl) n) :
    Refers30 (.schema f not allOf oneOf anyOf items props b addl) n := by
  cases h with
  | part ht h => exact .part ht h

theorem refers_string {format n : String} : ¬ Refers (stringJS format) n := by
  intro h
  unfold stringJS at h
  cases h with
  | here e => cases e
  | part ht _ => simp [parts] at ht

theorem keeps30 : Keeps V30.ver Refers30 := fun names =>
  { plain := by
      intro _ j sc hj hc n hn
      simp only [V30.ver] at hc
      split at hc
      · rename_i s hs
        cases hc
        exact hj n (refers_of_fromJS hn hs)
      · cases hc
    param := by
      intro isPtr sc h
      simp only [V30.ver]
      split
      · split
        · exact h
        · exact fun n hn => h n (refers_nullable hn)
      · exact h
    resp := by
      intro sc h
      simp only [V30.ver]
      split
      · exact fun n hn => h n (refers_nullable hn)
      · exact h
    text := fun _ n hn => absurd hn refers_string }

theorem keeps31 {toSimpleMap : JS → Except String S} (h : ∀ j s n, toSimpleMap j = .ok s → refers s n → Refers j n) :
    Keeps (V31.ver toSimpleMap) refers := fun names =>
  { plain := by
      intro _ j sc hj hc n hn
      simp only [V31.ver] at hc
      split at hc
      · rename_i s hs
        cases hc
        exact hj n (h _ _ _ hs hn)
      · cases hc
    param := fun _ _ h => h
    resp := fun _ h => h
    text := fun _ n hn => absurd hn refers_string }

/-! ## Following references from one schema to the next -/

mutual
theorem refers_of_jsRefs : ∀ (j : JS) {n : String}, n ∈ SchemaSpec.jsRefs j → Refers j n
  | .zero, n, h => by simp [SchemaSpec.jsRefs] at h
  | .bool _, n, h => by simp [SchemaSpec.jsRefs] at h
  | .obj flat not allOf oneOf anyOf items itemsArr props addl others, n, h => by
    simp only [SchemaSpec.jsRefs, List.mem_append] at h
    rcases h with ((((((((h | h) | h) | h) | h) | h) | h) | h) | h) | h
    · cases hr : flat.ref with
      | none => simp [hr] at h
      | some r =>
        simp only [hr, Option.mem_toList] at h
        exact .here (by rw [hr, localRef?_eq h])
    · obtain ⟨k, hk, e⟩ := refersOpt_of_jsRefs not h; exact .part (by simp [parts, hk]) e
    · obtain ⟨k, hk, e⟩ := refersList_of_jsRefs allOf h; exact .part (by simp [parts, hk]) e
    · obtain ⟨k, hk, e⟩ := refersList_of_jsRefs oneOf h; exact .part (by simp [parts, hk]) e
    · obtain ⟨k, hk, e⟩ := refersList_of_jsRefs anyOf h; exact .part (by simp [parts, hk]) e
    · obtain ⟨k, hk, e⟩ := refersOpt_of_jsRefs items h; exact .part (by simp [parts, hk]) e
    · obtain ⟨k, hk, e⟩ := refersList_of_jsRefs itemsArr h; exact .part (by simp [parts, hk]) e
    · obtain ⟨k, hk, e⟩ := refersProps_of_jsRefs props h
      exact .part (by simp only [parts, List.mem_append, hk, true_or, or_true]) e
    · obtain ⟨k, hk, e⟩ := refersOpt_of_jsRefs addl h; exact .part (by simp [parts, hk]) e
    · obtain ⟨k, hk, e⟩ := refersProps_of_jsRefs others h
      exact .part (by simp only [parts, List.mem_append, hk, or_true]) e
theorem refersOpt_of_jsRefs : ∀ (o : Option JS) {n : String}, n ∈ SchemaSpec.jsRefsOpt o → ∃ k ∈ o.toList, Refers k n
  | none, n, h => by simp [SchemaSpec.jsRefsOpt] at h
  | some j, n, h => ⟨j, by simp, refers_of_jsRefs j h⟩
theorem refersList_of_jsRefs : ∀ (l : List JS) {n : String}, n ∈ SchemaSpec.jsRefsList l → ∃ k ∈ l, Refers k n
  | [], n, h => by simp [SchemaSpec.jsRefsList] at h
  | j :: l, n, h => by
    simp only [SchemaSpec.jsRefsList, List.mem_append] at h
    rcases h with h | h
    · exact ⟨j, by simp, refers_of_jsRefs j h⟩
    · obtain ⟨k, hk, e⟩ := refersList_of_jsRefs l h; exact ⟨k, by simp [hk], e⟩
theorem refersProps_of_jsRefs : ∀ (l : List (String × JS)) {n : String}, n ∈ SchemaSpec.jsRefsProps l →
    ∃ k ∈ l.map (·.2), Refers k n
  | [], n, h => by simp [SchemaSpec.jsRefsProps] at h
  | (_, j) :: l, n, h => by
    simp only [SchemaSpec.jsRefsProps, List.mem_append] at h
    rcases h with h | h
    · exact ⟨j, by simp, refers_of_jsRefs j h⟩
    · obtain ⟨k, hk, e⟩ := refersProps_of_jsRefs l h
      exact ⟨k, by rw [List.map_cons]; exact List.mem_cons_of_mem _ hk, e⟩
end

mutual
theorem jsRefs_of_mainRefs : ∀ (j : JS) {n : String}, n ∈ SchemaSpec.mainRefs j → n ∈ SchemaSpec.jsRefs j
  | .zero, n, h => by simp [SchemaSpec.mainRefs] at h
  | .bool _, n, h => by simp [SchemaSpec.mainRefs] at h
  | .obj flat not allOf oneOf anyOf items itemsArr props addl others, n, h => by
    simp only [SchemaSpec.mainRefs] at h
    simp only [SchemaSpec.jsRefs]
    split at h
    · rename_i r hr
      simp only [hr, List.mem_append, h, true_or]
    · simp only [List.mem_append] at h ⊢
      rcases h with ((((((h | h) | h) | h) | h) | h) | h) | h
      · simp [jsRefsOpt_of_mainRefs not h]
      · simp [jsRefsList_of_mainRefs allOf h]
      · simp [jsRefsList_of_mainRefs oneOf h]
      · simp [jsRefsList_of_mainRefs anyOf h]
      · simp [jsRefsOpt_of_mainRefs items h]
      · simp [jsRefsList_of_mainRefs itemsArr h]
      · simp [jsRefsProps_of_mainRefs props h]
      · simp [jsRefsOpt_of_mainRefs addl h]
theorem jsRefsOpt_of_mainRefs : ∀ (o : Option JS) {n : String}, n ∈ SchemaSpec.mainRefsOpt o → n ∈ SchemaSpec.jsRefsOpt o
  | none, n, h => by simp [SchemaSpec.mainRefsOpt] at h
  | some j, n, h => jsRefs_of_mainRefs j h
theorem jsRefsList_of_mainRefs : ∀ (l : List JS) {n : String}, n ∈ SchemaSpec.mainRefsList l → n ∈ SchemaSpec.jsRefsList l
  | [], n, h => by simp [SchemaSpec.mainRefsList] at h
  | j :: l, n, h => by
    simp only [SchemaSpec.mainRefsList, SchemaSpec.jsRefsList, List.mem_append] at h ⊢
    exact h.imp (jsRefs_of_mainRefs j) (jsRefsList_of_mainRefs l)
theorem jsRefsProps_of_mainRefs : ∀ (l : List (String × JS)) {n : String}, n ∈ SchemaSpec.mainRefsProps l →
    n ∈ SchemaSpec.jsRefsProps l
  | [], n, h => by simp [SchemaSpec.mainRefsProps] at h
  | (_, j) :: l, n, h => by
    simp only [SchemaSpec.mainRefsProps, SchemaSpec.jsRefsProps, List.mem_append] at h ⊢
    exact h.imp (jsRefs_of_mainRefs j) (jsRefsProps_of_mainRefs l)
end

theorem get?_map_snd {A B : Type} {f : A → B} (m : GoMap A) (k : String) :
    GoMap.get? (m.map (fun e => (e.1, f e.2))) k = (m.get? k).map f := by
  induction m with
  | nil => rfl
  | cons p m ih =>
    obtain ⟨n, a⟩ := p
    simp only [List.map_cons, GoMap.get?]
    split
    · rfl
    · exact ih

theorem convOpt_mem {o : Option V30.OS} {j : JS} (h : j ∈ (SchemaSpec.convOpt o).toList) : ∃ s ∈ o.toList, SchemaSpec.conv s = j := by
  cases o with
  | none => simp [SchemaSpec.convOpt] at h
  | some s => simp only [SchemaSpec.convOpt, Option.toList_some, List.mem_singleton] at h; exact ⟨s, by simp, h.symm⟩

theorem convList_mem : ∀ {l : List V30.OS} {j : JS}, j ∈ SchemaSpec.convList l → ∃ s ∈ l, SchemaSpec.conv s = j
  | [], j, h => by simp [SchemaSpec.convList] at h
  | s :: l, j, h => by
    simp only [SchemaSpec.convList, List.mem_cons] at h
    rcases h with h | h
    · exact ⟨s, by simp, h.symm⟩
    · obtain ⟨t, ht, e⟩ := convList_mem h; exact ⟨t, by simp [ht], e⟩

theorem convProps_mem : ∀ {l : List (String × V30.OS)} {j : JS}, j ∈ (SchemaSpec.convProps l).map (·.2) →
    ∃ s ∈ l.map (·.2), SchemaSpec.conv s = j
  | [], j, h => by simp [SchemaSpec.convProps] at h
  | (_, s) :: l, j, h => by
    simp only [SchemaSpec.convProps, List.map_cons, List.mem_cons] at h
    rcases h with h | h
    · exact ⟨s, by simp, h.symm⟩
    · obtain ⟨t, ht, e⟩ := convProps_mem h; exact ⟨t, by rw [List.map_cons]; exact List.mem_cons_of_mem _ ht, e⟩

theorem refers30_of_conv {j : JS} {n : String} (h : Refers j n) : ∀ {s : V30.OS}, SchemaSpec.conv s = j → Refers30 s n := by
  induction h with
  | here hr =>
    intro s e
    cases s with
    | empty => simp only [SchemaSpec.conv, JS.obj.injEq] at e; rw [← e.1] at hr; cases hr
    | ref r =>
      simp only [SchemaSpec.conv, JS.obj.injEq] at e
      rw [← e.1] at hr
      cases hr
      exact .here
    | schema f =>
      simp only [SchemaSpec.conv, JS.obj.injEq] at e
      rw [← e.1] at hr
      cases hr
  | @part j k n hk h ih =>
    intro s e
    subst e
    cases s with
    | empty => simp [SchemaSpec.conv, parts] at hk
    | ref r => simp [SchemaSpec.conv, parts] at hk
    | schema f not allOf oneOf anyOf items props b addl =>
      suffices ∃ t ∈ parts30 (.schema f not allOf oneOf anyOf items props b addl), SchemaSpec.conv t = k by
        obtain ⟨t, ht, e⟩ := this
        exact .part ht (ih e)
      simp only [SchemaSpec.conv, parts, List.mem_append, List.map_nil, List.not_mem_nil, or_false] at hk
      simp only [parts30, List.mem_append]
      rcases hk with ((((((hk | hk) | hk) | hk) | hk)) | hk) | hk
      · obtain ⟨t, ht, e⟩ := convOpt_mem hk; exact ⟨t, by simp [ht], e⟩
      · obtain ⟨t, ht, e⟩ := convList_mem hk; exact ⟨t, by simp [ht], e⟩
      · obtain ⟨t, ht, e⟩ := convList_mem hk; exact ⟨t, by simp [ht], e⟩
      · obtain ⟨t, ht, e⟩ := convList_mem hk; exact ⟨t, by simp [ht], e⟩
      · obtain ⟨t, ht, e⟩ := convOpt_mem hk; exact ⟨t, by simp [ht], e⟩
      · obtain ⟨t, ht, e⟩ := convProps_mem hk; exact ⟨t, by simp only [ht, true_or, or_true], e⟩
      · cases b with
        | some b =>
          simp only [Option.toList_some, List.mem_singleton] at hk
          subst hk
          cases h with
          | part hk _ => simp [parts] at hk
        | none => obtain ⟨t, ht, e⟩ := convOpt_mem hk; exact ⟨t, by simp [ht], e⟩

end Verif.Closed

namespace Verif
open Closed

/-- **C107** (3.0): in a document that is built from the empty one by successful `AddOperation` calls, where each
reflection reports the definitions it refers to, every local reference of every schema can be followed. -/
theorem C107_followed30 (d : V30.Spec V30.OS) (h : Grown30 V30.ver Refers30 d) (s : V30.OS) (hs : Occurs30 d s) (n : String)
    (hn : Refers30 s n) : Has d.schemas n := followed30 keeps30 h s hs n hn

/-- **C107** (3.1): the same, if the conversion of jsonschema-go makes no references of its own. -/
theorem C107_followed31 {S : Type} (toSimpleMap : JS → Except String S) (refers : S → String → Prop)
    (hc : ∀ j s n, toSimpleMap j = .ok s → refers s n → Refers j n) (d : V31.Spec S)
    (h : Grown31 (V31.ver toSimpleMap) refers d) (s : S) (hs : Occurs31 d s) (n : String) (hn : refers s n) :
    Has d.schemas n := followed31 (keeps31 hc) h s hs n hn


/-- **C107** (3.0): whatever `ToJSONSchema` meets on its way from a schema of such a document, reference by reference,
is a component; it never has to put the empty schema in the place of a missing one. -/
theorem C107_needs30 (d : V30.Spec V30.OS) (h : Grown30 V30.ver Refers30 d) (s : V30.OS) (hs : Occurs30 d s) (n : String)
    (hn : SchemaSpec.Needs d.schemas s n) : Has d.schemas n := by
  unfold SchemaSpec.Needs at hn
  induction hn with
  | here hm => exact C107_followed30 d h s hs _ (refers30_of_conv (refers_of_jsRefs _ hm) rfl)
  | @there m n _ hm ih =>
    obtain ⟨c, hc⟩ := Option.isSome_iff_exists.1 ih
    simp only [SchemaSpec.component, hc, Option.getD_some] at hm
    exact C107_followed30 d h c (.inl ⟨m, GoMap.mem_of_get? hc⟩) _ (refers30_of_conv (refers_of_jsRefs _ hm) rfl)

/-- **C107** (3.1): `ToJSONSchema` of a schema of such a document returns, without the help of a decoder that accepts
missing components, if the schemas of the document decode to what refers to no more than they do. -/
theorem C107_resolves31 {S : Type} (toSimpleMap : JS → Except String S) (fromSimpleMap : Option S → Option JS)
    (refers : S → String → Prop) (hc : ∀ j s n, toSimpleMap j = .ok s → refers s n → Refers j n)
    (d : V31.Spec S) (h : Grown31 (V31.ver toSimpleMap) refers d)
    (hd : ∀ s, Occurs31 d s → ∃ j, fromSimpleMap (some s) = some j ∧ ∀ n, Refers j n → refers s n)
    (s : S) (hs : Occurs31 d s) (o : Order) : ∃ r, V31.resolve fromSimpleMap false o d.schemas (some s) = .ok r := by
  obtain ⟨j, hj, hr⟩ := hd s hs
  simp only [V31.resolve, hj, Bool.false_and, Bool.false_eq_true, if_false]
  refine (V31.C27_exact _ o j _ (by simp)).1.2 ?_
  have hget : ∀ n, Has d.schemas n → ∃ c k, (n, c) ∈ d.schemas ∧ fromSimpleMap (some c) = some k ∧
      V31.Schemas.decode ⟨d.schemas.map (fun e => (e.1, fromSimpleMap (some e.2))), (fromSimpleMap none).isSome⟩ n = some k ∧
      ∀ n, Refers k n → refers c n := by
    intro n hn
    obtain ⟨c, hc⟩ := Option.isSome_iff_exists.1 hn
    obtain ⟨k, hk, hr⟩ := hd c (.inl ⟨n, GoMap.mem_of_get? hc⟩)
    refine ⟨c, k, GoMap.mem_of_get? hc, hk, ?_, hr⟩
    simp only [V31.Schemas.decode]
    have e : GoMap.get? (d.schemas.map (fun e => (e.1, fromSimpleMap (some e.2)))) n = some (fromSimpleMap (some c)) := by
      rw [get?_map_snd (f := fun x => fromSimpleMap (some x)), hc]; rfl
    simp only [e, hk]
  suffices ∀ n, SchemaSpec.Needs31 ⟨d.schemas.map (fun e => (e.1, fromSimpleMap (some e.2))), (fromSimpleMap none).isSome⟩ j n →
      Has d.schemas n by
    intro n hn hdec
    obtain ⟨c, k, _, _, e, _⟩ := hget n (this n hn)
    rw [e] at hdec
    cases hdec
  intro n hn
  unfold SchemaSpec.Needs31 at hn
  induction hn with
  | here hm => exact C107_followed31 toSimpleMap refers hc d h s hs _ (hr _ (refers_of_jsRefs _ (jsRefs_of_mainRefs _ hm)))
  | @there m n _ hm ih =>
    obtain ⟨c, k, hm1, _, e, hr⟩ := hget m ih
    simp only [SchemaSpec.component31, e, Option.getD_some] at hm
    exact C107_followed31 toSimpleMap refers hc d h c (.inl ⟨m, hm1⟩) _ (hr _ (refers_of_jsRefs _ (jsRefs_of_mainRefs _ hm)))

/-! ## A concrete document

The document of C83: two parameters without references, a JSON parameter, a body and a response that refer to `Thing`. -/

namespace Ex107
open Ex83 Conform

theorem leaf {flat : JFlat} {n : String} (hf : flat.ref = none) :
    ¬ Refers (.obj flat none [] [] [] none [] [] none []) n := by
  intro h
  cases h with
  | here e => rw [hf] at e; cases e
  | part ht _ => simp [parts] at ht

theorem refers_ints {n : String} : ¬ Refers ints n := by
  intro h
  unfold ints at h
  cases h with
  | here e => cases e
  | part ht h =>
    simp only [parts, Option.toList_none, Option.toList_some, List.nil_append, List.append_nil, List.map_nil,
      List.mem_singleton] at ht
    subst ht
    exact leaf rfl h

theorem refers_thing {n : String} : ¬ Refers thing n := by
  intro h
  unfold thing at h
  cases h with
  | here e => cases e
  | part ht h =>
    simp only [parts, Option.toList_none, Option.toList_some, List.nil_append, List.append_nil, List.map_nil, List.map_cons,
      List.mem_append, List.mem_cons, List.not_mem_nil, or_false] at ht
    rcases ht with (rfl | rfl) | rfl
    · exact leaf rfl h
    · exact leaf rfl h
    · cases h with
      | part ht _ => simp [parts] at ht

theorem append_cancel {p a b : String} (h : p ++ a = p ++ b) : a = b := by
  have := congrArg String.toList h
  rw [String.toList_append, String.toList_append] at this
  exact String.toList_inj.1 (List.append_cancel_left this)

theorem refers_toThing {n : String} (h : Refers toThing n) : n = "Thing" := by
  unfold toThing at h
  cases h with
  | here e =>
    have e : "#/components/schemas/" ++ "Thing" = "#/components/schemas/" ++ n := Option.some.inj e
    exact (append_cancel e).symm
  | part ht _ => simp [parts] at ht

variable {names : String → Prop}

theorem in_thing : DefinitionOk (Closed.Within Refers names) "Thing" thing :=
  ⟨⟨by decide, by decide⟩, fun _ h => absurd h refers_thing⟩

theorem in_ref (h : names "Thing") : Closed.Within Refers names .content toThing := fun _ hn => refers_toThing hn ▸ h

theorem in_id : ParamFieldOk Pub30.places (Closed.Within Refers names) "path" (fieldId (typed "integer") false "") where
  schema _ _ h := absurd h (leaf rfl)
  content h := by simp [JSONEncoded, fieldId] at h
  style := ok_id.style
  object := ok_id.object
  tags := ok_id.tags

theorem in_tags : ParamFieldOk Pub30.places (Closed.Within Refers names) "query" fieldTags where
  schema _ _ h := absurd h refers_ints
  content h := by simp [JSONEncoded, fieldTags] at h
  style := ok_tags.style
  object := ok_tags.object
  tags := ok_tags.tags

theorem in_filter (hn : names "Thing") : ParamFieldOk Pub30.places (Closed.Within Refers names) "query" fieldFilter where
  schema h := absurd (.inr ⟨rfl, rfl⟩) h
  content _ := by
    refine ⟨?_, ?_⟩
    · intro js e; cases e; exact in_ref hn
    · intro n d h; cases List.mem_singleton.1 h; exact in_thing
  style := ok_filter.style
  object := ok_filter.object
  tags := ok_filter.tags

theorem responds : RespondsJSON env30 "post" (makeUnit (.value (some output)) []) output := by
  refine ⟨by decide +kernel, rfl, ?_⟩
  rintro ⟨js, j, -, h2, h3⟩
  cases h2
  revert h3
  decide

/-- The reflections report what they refer to. -/
theorem complete (m : GoMap V30.OS) : Complete Pub30.places Refers30 m env30 (context (fieldId (typed "integer") false "")) := by
  intro names _ hr
  have hn : names "Thing" := hr "Thing" (.inr ⟨_, by simp [context], output, thing, responds, by simp [output]⟩)
  refine ⟨⟨by simp [context], by simp [context], by simp [context], by simp [context, Keys], by simp [context],
    by simp [context, Keys], by simp [context]⟩, by simp [context], ⟨?_, fun f h => (by cases h), trivial⟩, ?_⟩
  · refine ⟨?_, ?_, ?_, ?_⟩
    · intro inn c h
      have : (inn, c) ∈ [("query", fieldTags), ("query", fieldFilter), ("path", fieldId (typed "integer") false "")] := h
      simp only [List.mem_cons, Prod.mk.injEq, List.not_mem_nil, or_false] at this
      rcases this with ⟨rfl, rfl⟩ | ⟨rfl, rfl⟩ | ⟨rfl, rfl⟩
      · exact in_tags
      · exact in_filter hn
      · exact in_id
    · intro _ _ inn _ n d h
      have : Event.defn n d ∈ (if inn = "path" then [Event.prop (fieldId (typed "integer") false "")]
        else if inn = "query" then [.prop fieldTags, .prop fieldFilter] else []) := h
      repeat' split at this
      all_goals simp at this
    · intro _ _ sch defs h
      cases h
      exact ⟨in_ref hn, fun n d h => by cases List.mem_singleton.1 h; exact in_thing⟩
    · intro _ _ sch defs h
      cases h
      exact ⟨in_ref hn, fun n d h => by cases List.mem_singleton.1 h; exact in_thing⟩
  · intro cu h
    simp only [context, List.mem_cons, List.not_mem_nil, or_false] at h
    rcases h with rfl | rfl
    · refine ⟨ok_output (method := "post").place, ?_, ?_, ?_, fun f h => by cases h⟩
      · intro value h js e; cases h.2.1; cases e; exact in_ref hn
      · intro value h n d hd
        cases h.2.1
        cases List.mem_singleton.1 hd
        exact in_thing
      · intro value h c hc
        cases h
        have : c ∈ [fieldRate] := hc
        cases List.mem_singleton.1 this
        exact ⟨fun _ h => absurd h (leaf rfl), fun h h' e => by cases e; rfl⟩
    · exact ⟨ok_error (method := "post").place, fun value h => (by cases h.2.1), fun value h => (by cases h.2.1),
        fun value h => (by cases h), fun f h r _ => by cases h; exact .inl ⟨_, rfl, rfl⟩⟩

theorem succeeds : (V30.addOperation V30.ver env30 (V30.Spec.setTitle {} "Things")
    (context (fieldId (typed "integer") false ""))).2.2 = .ok := by decide +kernel

/-- The document of C83 is built so. -/
theorem grown : Grown30 V30.ver Refers30 (doc (fieldId (typed "integer") false "")) := by
  refine .add _ _ _ (.bearer _ _ _ (.reflect _ _ (.title _ .new) (complete _) ⟨"things/{id}".toList, rfl⟩ succeeds)
    ⟨by decide, by decide⟩) ?_ ⟨"ping".toList, rfl⟩
  exact Pub30.operationOk_empty

/-- The schema of the request body. -/
def bodySchema (d : V30.Spec V30.OS) : Option V30.OS :=
  (((((d.paths.get? "/things/{id}").bind (·.ops.get? "post")).bind (·.requestBody)).bind (·.body)).bind
    (·.content.get? "application/json")).bind (·.schema)

/-- Whether it is a reference to `Thing`. -/
def isThing : Option V30.OS → Bool
  | some (.ref r) => decide (r = "#/components/schemas/Thing")
  | _ => false

/-- What is written as 3.1 schema is here the JSON Schema itself. -/
def out31 : Value JS where
  plain := .ok thing
  response := ⟨[.defn "Thing" thing], .ok toThing⟩

/-- The context of `GET /things`. -/
def context31 : OpCtx JS where
  method := "get"
  path := "/things"
  resp := [makeUnit (.value (some out31)) []]

/-- The environment. -/
def env31 : Env JS := ⟨{}, .ok false, id, fun _ => .ok "{\"type\":\"object\",\"properties\":{}}"⟩

theorem complete31 (m : GoMap JS) : Complete Pub31.places Refers m env31 context31 := by
  intro names _ hr
  have hn : names "Thing" := by
    refine hr "Thing" (.inr ⟨_, List.mem_singleton.2 rfl, out31, thing, ⟨by decide +kernel, rfl, ?_⟩, by simp [out31]⟩)
    rintro ⟨js, j, -, h2, h3⟩
    cases h2
    revert h3
    decide
  refine ⟨Pub30.operationOk_empty, by simp [context31], trivial, ?_⟩
  intro cu h
  cases List.mem_singleton.1 h
  refine ⟨(C83_status _).2 (.inr (.inr (by decide))), ?_, ?_, ?_, fun f h => by cases h⟩
  · intro value h js e; cases h.2.1; cases e; exact in_ref hn
  · intro value h n d hd
    cases h.2.1
    cases List.mem_singleton.1 hd
    exact in_thing
  · intro value h c hc
    cases h
    cases hc

/-- Such a document of 3.1, with an operation and a webhook. -/
theorem grown31 : Grown31 (V31.ver .ok) Refers
    (V31.addWebhook (V31.ver .ok) env31 (V31.addOperation (V31.ver .ok) env31 {} context31).1 context31).1 := by
  refine .reflectWebhook _ _ (.reflect _ _ .new (complete31 _) ⟨"things".toList, rfl⟩ ?_) (complete31 _) ?_
  · decide +kernel
  · decide +kernel

/-- A response whose reflection fails after the first definition was reported. -/
def broken : Value V30.OS where
  plain := .ok thing
  response := ⟨[.defn "Box" (.obj {} none [] [] [] (some toThing) [] [] none [])], .error "failed"⟩

/-- The context with it. -/
def brokenContext : OpCtx V30.OS where
  method := "get"
  path := "/box"
  resp := [makeUnit (.value (some broken)) []]

end Ex107

/-- **C107**, concrete (3.0): the request body refers to the component `Thing`, and this is there. -/
theorem C107_case30 : ∃ s, Occurs30 (Ex83.doc (Ex83.fieldId (Ex83.typed "integer") false "")) s ∧ Refers30 s "Thing" ∧
    Has (Ex83.doc (Ex83.fieldId (Ex83.typed "integer") false "")).schemas "Thing" := by
  have h : Ex107.isThing (Ex107.bodySchema (Ex83.doc (Ex83.fieldId (Ex83.typed "integer") false ""))) = true := by
    decide +kernel
  obtain ⟨s, hs, ho⟩ : ∃ s, Ex107.bodySchema (Ex83.doc (Ex83.fieldId (Ex83.typed "integer") false "")) = some s ∧
      s = .ref ("#/components/schemas/" ++ "Thing") := by
    revert h
    cases Ex107.bodySchema (Ex83.doc (Ex83.fieldId (Ex83.typed "integer") false "")) with
    | none => intro h; cases h
    | some s =>
      cases s with
      | ref r => intro h; exact ⟨_, rfl, by rw [of_decide_eq_true h]; rfl⟩
      | _ => intro h; cases h
  simp only [Ex107.bodySchema, Option.bind_eq_some_iff] at hs
  obtain ⟨mt, ⟨q, ⟨b, ⟨op, ⟨p, h1, h2⟩, h3⟩, h4⟩, h5⟩, h6⟩ := hs
  have hocc : Occurs30 (Ex83.doc (Ex83.fieldId (Ex83.typed "integer") false "")) s :=
    .inr ⟨_, p, GoMap.mem_of_get? h1, .inr ⟨_, op, GoMap.mem_of_get? h2, .inr (.inl ⟨b, q, h3, h4, _, mt, GoMap.mem_of_get? h5, h6⟩)⟩⟩
  have href : Refers30 s "Thing" := by rw [ho]; exact .here
  exact ⟨s, hocc, href, C107_followed30 _ Ex107.grown s hocc "Thing" href⟩

/-- **C107**, concrete (3.1): the same of a component made by the reflection of a webhook. -/
theorem C107_case31 : ∃ s, Occurs31 (V31.addWebhook (V31.ver .ok) Ex107.env31
    (V31.addOperation (V31.ver .ok) Ex107.env31 {} Ex107.context31).1 Ex107.context31).1 s ∧
    (∀ n, Refers s n → Has (V31.addWebhook (V31.ver .ok) Ex107.env31
      (V31.addOperation (V31.ver .ok) Ex107.env31 {} Ex107.context31).1 Ex107.context31).1.schemas n) := by
  have h : ((V31.addWebhook (V31.ver .ok) Ex107.env31
    (V31.addOperation (V31.ver .ok) Ex107.env31 {} Ex107.context31).1 Ex107.context31).1.schemas.get? "Thing").isSome = true := by
    decide +kernel
  obtain ⟨s, hs⟩ := Option.isSome_iff_exists.1 h
  exact ⟨s, .inl ⟨_, GoMap.mem_of_get? hs⟩, fun n hn => C107_followed31 .ok Refers (fun j s n e h => by cases e; exact h) _
    Ex107.grown31 s (.inl ⟨_, GoMap.mem_of_get? hs⟩) n hn⟩

/-- **C107**, concrete (3.1): all schemas of that document resolve, with a decoder that rejects missing components. -/
theorem C107_resolves_case (o : Order) (s : JS) (hs : Occurs31 (V31.addWebhook (V31.ver .ok) Ex107.env31
    (V31.addOperation (V31.ver .ok) Ex107.env31 {} Ex107.context31).1 Ex107.context31).1 s) :
    ∃ r, V31.resolve id false o (V31.addWebhook (V31.ver .ok) Ex107.env31
      (V31.addOperation (V31.ver .ok) Ex107.env31 {} Ex107.context31).1 Ex107.context31).1.schemas (some s) = .ok r :=
  C107_resolves31 .ok id Refers (fun j s n e h => by cases e; exact h) _ Ex107.grown31
    (fun s _ => ⟨s, rfl, fun _ h => h⟩) s hs o

/-- **C107**, limit: a call that fails may leave a component behind whose reference cannot be followed. -/
theorem C107_failed : ∃ d : V30.Spec V30.OS, d = (V30.addOperation V30.ver Ex83.env30 {} Ex107.brokenContext).1 ∧
    (V30.addOperation V30.ver Ex83.env30 {} Ex107.brokenContext).2.2 ≠ .ok ∧
    (∃ s, Occurs30 d s ∧ Refers30 s "Thing") ∧ ¬ Has d.schemas "Thing" := by
  refine ⟨_, rfl, by decide +kernel, ⟨_, .inl ⟨"Box", List.mem_cons_self ..⟩, ?_⟩, by unfold Has; decide +kernel⟩
  exact .part (t := .ref "#/components/schemas/Thing") (List.mem_cons_self ..) (.here (n := "Thing"))

end Verif
