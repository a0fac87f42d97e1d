import Verif.Spec.Refl

/-!
Reflectors as objects (C97).
-/

namespace Verif
open Refl Spec

variable {Doc Ctx Res : Type}

/-- What the program sees of the reflector `r`. -/
def view (own : Owners) (w : World Doc Ctx) (r : Nat) : One Doc Ctx where
  made := (w.refl r).isSome
  document := w.docOf r
  held x := own.doc x == r && (w.doc x).isSome
  ctx c := if own.ctx c = r then w.ctx c else none
  stored c := own.ctx c == r && match w.refl r with
    | some (some d) => w.stored c d
    | _ => false

/-- Reflectors have documents of their own, pointers point to the document of their reflector, and contexts were added to the
document of their reflector only. -/
structure Apart (own : Owners) (w : World Doc Ctx) : Prop where
  bound : ∀ r d, w.refl r = some (some d) → d < w.docs.length
  apart : ∀ r r' d, w.refl r = some (some d) → w.refl r' = some (some d) → r = r'
  held : ∀ x d, w.doc x = some d → w.refl (own.doc x) = some (some d)
  stored : ∀ c d, w.stored c d = true → w.refl (own.ctx c) = some (some d)

theorem put_self {α : Type} (f : Nat → Option α) (x : Nat) (v : Option α) : put f x v x = v := by simp [put]

theorem one_ext {a b : One Doc Ctx} (h1 : a.made = b.made) (h2 : a.document = b.document) (h3 : a.held = b.held)
    (h4 : a.ctx = b.ctx) (h5 : a.stored = b.stored) : a = b := by
  cases a; cases b; simp_all

section
variable {own : Owners} {w : World Doc Ctx}

theorem docOf_some {r d : Nat} (h : w.refl r = some (some d)) : w.docOf r = w.docs[d]? := by simp [World.docOf, h]

theorem docOf_none {r : Nat} (h : w.refl r = some none) : w.docOf r = none := by simp [World.docOf, h]

/-- A change of the document and the contexts of one reflector. -/
theorem upd (ha : Apart own w) (r : Nat) {ds : List Doc} {ctx' : Nat → Option Ctx} {st' : Nat → Nat → Bool}
    (hl : ds.length = w.docs.length) (hds : ∀ i, w.refl r ≠ some (some i) → ds[i]? = w.docs[i]?)
    (hctx : ∀ c, own.ctx c ≠ r → ctx' c = w.ctx c) (hst : ∀ c, own.ctx c ≠ r → st' c = w.stored c)
    (hst' : ∀ c d, own.ctx c = r → st' c d = true → w.refl r = some (some d)) :
    Apart own { w with docs := ds, ctx := ctx', stored := st' } ∧
    ∀ r', r' ≠ r → view own { w with docs := ds, ctx := ctx', stored := st' } r' = view own w r' := by
  refine ⟨⟨fun r d h => by rw [hl]; exact ha.bound r d h, ha.apart, ha.held, fun c d h => ?_⟩, fun r' hne => ?_⟩
  · by_cases e : own.ctx c = r
    · rw [e]; exact hst' c d e h
    · simp only [hst c e] at h; exact ha.stored c d h
  · refine one_ext rfl ?_ rfl (funext fun c => ?_) (funext fun c => ?_)
    · simp only [view, World.docOf]
      split
      · rename_i d h
        exact hds d (fun h' => hne (ha.apart _ _ _ h h'))
      · rfl
    · simp only [view]
      by_cases e : own.ctx c = r'
      · simp only [e, if_true]; exact hctx c (by rw [e]; exact hne)
      · simp only [e, if_false]
    · simp only [view]
      by_cases e : own.ctx c = r'
      · rw [hst c (by rw [e]; exact hne)]
      · have e' : (own.ctx c == r') = false := by simp [e]
        rw [e', Bool.false_and, Bool.false_and]

theorem view_ctx {r c : Nat} (hc : own.ctx c = r) (v : Option Ctx) {ctx : Nat → Option Ctx} :
    (fun c' => if own.ctx c' = r then put ctx c v c' else none) = put (fun c' => if own.ctx c' = r then ctx c' else none) c v := by
  funext c'
  simp only [put]
  by_cases h : c' = c
  · subst h; simp [hc]
  · simp [h]

/-- What `SpecEns` does. -/
structure Ensured (own : Owners) (lib : Lib Doc Ctx Res) (w : World Doc Ctx) (r : Nat) (w' : World Doc Ctx) (d : Nat) : Prop where
  apart : Apart own w'
  refl : w'.refl r = some (some d)
  docs : w'.docs[d]? = some ((w.docOf r).getD lib.fresh)
  view : view own w' r = { view own w r with document := some ((w.docOf r).getD lib.fresh) }
  others : ∀ r', r' ≠ r → Verif.view own w' r' = Verif.view own w r'
  doc : w'.doc = w.doc
  ctx : w'.ctx = w.ctx
  stored : w'.stored = w.stored

theorem specEns_ensured (ha : Apart own w) (lib : Lib Doc Ctx Res) {r : Nat} {spec : Option Nat} (hr : w.refl r = some spec) :
    Ensured own lib w r (specEns lib w r spec).1 (specEns lib w r spec).2 := by
  cases spec with
  | some d =>
    have hd := ha.bound r d hr
    have he : w.docs[d]? = some ((w.docOf r).getD lib.fresh) := by
      rw [docOf_some hr]; simp [hd]
    refine ⟨ha, hr, he, one_ext rfl ?_ rfl rfl rfl, fun _ _ => rfl, rfl, rfl, rfl⟩
    show w.docOf r = _
    rw [← he, docOf_some hr]
  | none =>
    have hno : w.docOf r = none := docOf_none hr
    have hst : ∀ c, own.ctx c = r → ∀ d, w.stored c d = false := by
      intro c e d
      cases h : w.stored c d with
      | false => rfl
      | true => have := ha.stored c d h; rw [e, hr] at this; cases this
    simp only [specEns]
    refine ⟨⟨?_, ?_, ?_, ?_⟩, put_self _ _ _, ?_, one_ext ?_ ?_ rfl rfl (funext fun c => ?_), ?_, rfl, rfl, rfl⟩
    · intro r' d h
      simp only [put] at h
      simp only [List.length_append, List.length_cons, List.length_nil]
      split at h
      · cases h; omega
      · have := ha.bound r' d h; omega
    · intro r1 r2 d h1 h2
      simp only [put] at h1 h2
      split at h1 <;> split at h2
      · rename_i e1 e2; rw [e1, e2]
      · cases h1; have := ha.bound _ _ h2; omega
      · cases h2; have := ha.bound _ _ h1; omega
      · exact ha.apart _ _ _ h1 h2
    · intro x d h
      have := ha.held x d h
      have hne : own.doc x ≠ r := by intro e; rw [e, hr] at this; cases this
      simp only [put, hne, if_false]; exact this
    · intro c d h
      have := ha.stored c d h
      have hne : own.ctx c ≠ r := by intro e; rw [e, hr] at this; cases this
      simp only [put, hne, if_false]; exact this
    · simp [hno]
    · simp [view, put, hr]
    · simp [view, World.docOf, put, hr]
    · by_cases e : own.ctx c = r
      · simp [view, put, hr, e, hst c e]
      · have e' : (own.ctx c == r) = false := by simp [e]
        simp only [view, e', Bool.false_and]
    · intro r' hne
      refine one_ext ?_ ?_ rfl rfl (funext fun c => ?_)
      · simp [view, put, hne]
      · simp only [view, World.docOf, put, hne, if_false]
        split
        · rename_i d h
          have := ha.bound _ _ h
          rw [List.getElem?_append_left this]
        · rfl
      · simp [view, put, hne]

theorem touched_get (st : Nat → Bool) (f : Doc → Doc) (ds : List Doc) (i : Nat) :
    (touched st f ds)[i]? = ds[i]?.map (fun doc => if st i then f doc else doc) := by
  simp only [touched, List.getElem?_mapIdx]

theorem touched_length (st : Nat → Bool) (f : Doc → Doc) (ds : List Doc) : (touched st f ds).length = ds.length := by
  simp [touched]

/-- A new reflector without a document. -/
theorem fresh_apart (ha : Apart own w) {r : Nat} (hr : w.refl r = none) :
    Apart own { w with refl := put w.refl r (some none) } ∧
    view own { w with refl := put w.refl r (some none) } r = { view own w r with made := true } ∧
    ∀ r', r' ≠ r → view own { w with refl := put w.refl r (some none) } r' = view own w r' := by
  refine ⟨⟨fun r' d h => ?_, fun r1 r2 d h1 h2 => ?_, fun x d h => ?_, fun c d h => ?_⟩, ?_, fun r' hne => ?_⟩
  · simp only [put] at h; split at h
    · cases h
    · exact ha.bound _ _ h
  · simp only [put] at h1 h2
    split at h1
    · cases h1
    · split at h2
      · cases h2
      · exact ha.apart _ _ _ h1 h2
  · have := ha.held x d h
    have hne : own.doc x ≠ r := by intro e; rw [e, hr] at this; cases this
    simp only [put, hne, if_false]; exact this
  · have := ha.stored c d h
    have hne : own.ctx c ≠ r := by intro e; rw [e, hr] at this; cases this
    simp only [put, hne, if_false]; exact this
  · refine one_ext ?_ ?_ rfl rfl (funext fun c => ?_)
    · simp [view, put]
    · simp [view, World.docOf, put, hr]
    · simp [view, put, hr]
  · refine one_ext ?_ ?_ rfl rfl (funext fun c => ?_)
    · simp [view, put, hne]
    · simp [view, World.docOf, put, hne]
    · simp [view, put, hne]

end

/-- One step, seen from every reflector. -/
theorem step_view {own : Owners} (lib : Nat → Lib Doc Ctx Res) {w : World Doc Ctx} (ha : Apart own w) (c : Cmd Doc Ctx)
    (hc : own.Tidy c) :
    Apart own (step lib w c).1 ∧
    view own (step lib w c).1 (own.reflector c) =
      (oneStep (lib (own.reflector c)) (view own w (own.reflector c)) c).1 ∧
    (step lib w c).2 = (oneStep (lib (own.reflector c)) (view own w (own.reflector c)) c).2 ∧
    ∀ r, r ≠ own.reflector c → view own (step lib w c).1 r = view own w r := by
  cases c with
  | newReflector r =>
    simp only [step, Owners.reflector]
    cases hr : w.refl r with
    | some spec => simp [oneStep, view, hr, ha]
    | none =>
      obtain ⟨ha', hv, ho⟩ := fresh_apart ha hr
      have h := specEns_ensured ha' (lib r) (r := r) (spec := none) (put_self _ _ _)
      have h1 : (view own w r).made = false := by simp [view, hr]
      refine ⟨h.apart, ?_, ?_, ?_⟩
      · simp only
        rw [h.view, hv]
        simp only [oneStep, h1]
        refine one_ext rfl ?_ rfl rfl rfl
        simp [World.docOf, put]
      · simp [oneStep, h1]
      · intro r' hne
        simp only
        rw [h.others r' hne, ho r' hne]
  | zeroReflector r =>
    simp only [step, Owners.reflector]
    cases hr : w.refl r with
    | some spec =>
      refine ⟨ha, ?_, rfl, fun _ _ => rfl⟩
      refine one_ext ?_ rfl rfl rfl rfl
      simp [oneStep, view, hr]
    | none =>
      obtain ⟨ha', hv, ho⟩ := fresh_apart ha hr
      exact ⟨ha', hv, rfl, ho⟩
  | specEns r x =>
    simp only [Owners.Tidy] at hc
    simp only [step, Owners.reflector]
    cases hr : w.refl r with
    | none =>
      have h1 : (view own w r).made = false := by simp [view, hr]
      refine ⟨ha, by simp [oneStep, h1], by simp [oneStep, h1], fun _ _ => rfl⟩
    | some spec =>
      have h := specEns_ensured ha (lib r) hr
      have h1 : (view own w r).made = true := by simp [view, hr]
      simp only
      refine ⟨⟨h.apart.bound, h.apart.apart, ?_, h.apart.stored⟩, ?_, by simp [oneStep, h1], ?_⟩
      · intro y d hy
        simp only [put] at hy
        split at hy
        · rename_i e; cases hy; rw [e, hc]; exact h.refl
        · exact h.apart.held y d hy
      · simp only [oneStep, h1, if_true]
        refine one_ext ?_ ?_ (funext fun y => ?_) ?_ ?_
        · exact (congrArg One.made h.view).trans h1
        · have := congrArg One.document h.view; exact this
        · simp only [view, put, h.doc]
          by_cases e : y = x
          · simp [e, hc]
          · simp [e]
        · have := congrArg One.ctx h.view; exact this
        · have := congrArg One.stored h.view; exact this
      · intro r' hne
        have ho := h.others r' hne
        have o1 := congrArg One.made ho
        have o2 := congrArg One.document ho
        have o3 := congrArg One.ctx ho
        have o4 := congrArg One.stored ho
        refine one_ext o1 o2 (funext fun y => ?_) o3 o4
        simp only [view, put, h.doc]
        by_cases e : y = x
        · have : ¬ own.doc x = r' := by rw [hc]; exact fun e => hne e.symm
          simp [e, this]
        · simp [e]
  | edit x f =>
    simp only [step, Owners.reflector]
    cases hx : w.doc x with
    | none =>
      have h1 : (view own w (own.doc x)).held x = false := by simp [view, hx]
      exact ⟨ha, by simp [oneStep, h1], by simp [oneStep, h1], fun _ _ => rfl⟩
    | some d =>
      have hr := ha.held x d hx
      have h1 : (view own w (own.doc x)).held x = true := by simp [view, hx]
      obtain ⟨u1, u2⟩ := upd ha (own.doc x) (ds := w.docs.modify d f) (ctx' := w.ctx) (st' := w.stored) (by simp)
        (fun i hi => by
          have hne : d ≠ i := by intro e; exact hi (e ▸ hr)
          simp [hne])
        (fun _ _ => rfl) (fun _ _ => rfl) (fun c d e h => e ▸ ha.stored c d h)
      refine ⟨u1, ?_, by simp [oneStep, h1], u2⟩
      simp only [oneStep, h1, if_true]
      refine one_ext rfl ?_ rfl rfl rfl
      simp [view, World.docOf, hr]
  | newContext r c method path =>
    simp only [Owners.Tidy] at hc
    simp only [step, Owners.reflector]
    cases hr : w.refl r with
    | none =>
      have h1 : (view own w r).made = false := by simp [view, hr]
      refine ⟨ha, by simp [oneStep, h1], by simp [oneStep, h1], fun _ _ => rfl⟩
    | some spec =>
      have h1 : (view own w r).made = true := by simp [view, hr]
      simp only [oneStep, h1, if_true]
      have hf1 : ∀ (st : Nat → Nat → Bool) c', own.ctx c' ≠ r → forget st c c' = st c' := by
        intro st c' hne
        have : c' ≠ c := fun e => hne (e ▸ hc)
        funext d; simp [forget, this]
      have hf2 : ∀ (st : Nat → Nat → Bool) c' d, forget st c c' d = true → st c' d = true := by
        intro st c' d h
        simp only [forget] at h
        split at h
        · cases h
        · exact h
      have hp1 : ∀ (f : Nat → Option Ctx) v c', own.ctx c' ≠ r → put f c v c' = f c' := by
        intro f v c' hne
        have : c' ≠ c := fun e => hne (e ▸ hc)
        simp [put, this]
      cases hs : sanitizeMethodPath method path with
      | error e =>
        obtain ⟨u1, u2⟩ := upd ha r (ds := w.docs) (ctx' := put w.ctx c none) (st' := forget w.stored c) rfl (fun _ _ => rfl)
          (hp1 _ _) (hf1 _) (fun c' d e h => e ▸ ha.stored c' d (hf2 _ _ _ h))
        refine ⟨u1, ?_, rfl, u2⟩
        refine one_ext h1 rfl rfl (view_ctx hc none) (funext fun c' => ?_)
        simp only [view, forget]
        by_cases e : c' = c
        · subst e; cases w.refl r with
          | none => simp
          | some s => cases s <;> simp
        · simp [e]
      | ok s =>
        have h := specEns_ensured ha (lib r) hr
        have hv : (view own w r).document = w.docOf r := rfl
        have hst : (view own (specEns (lib r) w r spec).1 r).stored = (view own w r).stored := by rw [h.view]
        simp only [h.docs, hv]
        generalize hw : (specEns (lib r) w r spec).1 = w' at h hst
        generalize hd : (specEns (lib r) w r spec).2 = d at h
        have hdl := h.apart.bound r d h.refl
        rcases hn : (lib r).newContext ((w.docOf r).getD (lib r).fresh) method path with ⟨doc', res⟩
        have key : ∀ v, Apart own { w' with docs := w'.docs.set d doc', ctx := put w'.ctx c v, stored := forget w'.stored c } ∧
            view own { w' with docs := w'.docs.set d doc', ctx := put w'.ctx c v, stored := forget w'.stored c } r =
              { view own w r with
                made := true
                document := some doc'
                ctx := put (view own w r).ctx c v
                stored := fun c' => c' != c && (view own w r).stored c' } ∧
            ∀ r', r' ≠ r → view own { w' with docs := w'.docs.set d doc', ctx := put w'.ctx c v, stored := forget w'.stored c } r' =
              view own w r' := by
          intro v
          obtain ⟨u1, u2⟩ := upd h.apart r (ds := w'.docs.set d doc') (ctx' := put w'.ctx c v) (st' := forget w'.stored c) (by simp)
            (fun i hi => by
              have hne : d ≠ i := by intro e; exact hi (e ▸ h.refl)
              simp [hne])
            (hp1 _ _) (hf1 _) (fun c' d e h' => e ▸ h.apart.stored c' d (hf2 _ _ _ h'))
          refine ⟨u1, ?_, fun r' hne => (u2 r' hne).trans (h.others r' hne)⟩
          refine one_ext ?_ ?_ ?_ ?_ (funext fun c' => ?_)
          · simp [view, h.refl]
          · simp [view, World.docOf, h.refl, hdl]
          · simp only [view, h.doc]
          · simp only [view, h.ctx]; exact view_ctx hc v
          · simp only
            rw [← hst]
            simp only [view, h.refl, forget]
            by_cases e : c' = c
            · simp [e]
            · simp [e]
        cases res with
        | ok oc => exact ⟨(key (some oc)).1, (key (some oc)).2.1, by trivial, (key (some oc)).2.2⟩
        | error e => exact ⟨(key none).1, (key none).2.1, by trivial, (key none).2.2⟩
  | configure c f shows =>
    simp only [step, Owners.reflector, oneStep]
    obtain ⟨u1, u2⟩ := upd ha (own.ctx c) (ds := touched (w.stored c) shows w.docs) (ctx' := put w.ctx c ((w.ctx c).map f))
      (st' := w.stored) (touched_length _ _ _)
      (fun i hi => by
        rw [touched_get]
        cases hs : w.stored c i with
        | true => exact absurd (ha.stored c i hs) hi
        | false => simp)
      (fun c' hne => by
        have : c' ≠ c := fun e => hne (by rw [e])
        simp [put, this])
      (fun _ _ => rfl) (fun c d e h => e ▸ ha.stored c d h)
    refine ⟨u1, ?_, by trivial, u2⟩
    refine one_ext rfl ?_ rfl ?_ rfl
    · show _ = if (view own w (own.ctx c)).stored c = true then (view own w (own.ctx c)).document.map shows else _
      have hst : (view own w (own.ctx c)).stored c = match w.refl (own.ctx c) with
          | some (some d) => w.stored c d
          | _ => false := by simp [view]
      rw [hst]
      show World.docOf { w with docs := _, ctx := _ } (own.ctx c) = if _ then (w.docOf (own.ctx c)).map shows else w.docOf (own.ctx c)
      unfold World.docOf
      split
      · rename_i d hr
        simp only at hr
        simp only [hr, touched_get]
        cases w.stored c d <;> simp
      · simp_all
    · have := view_ctx (own := own) (r := own.ctx c) (c := c) rfl ((w.ctx c).map f) (ctx := w.ctx)
      simp only [view, if_true]
      exact this
  | add webhook r c =>
    simp only [Owners.Tidy] at hc
    simp only [step, Owners.reflector]
    cases hr : w.refl r with
    | none =>
      have h1 : (view own w r).made = false := by simp [view, hr]
      refine ⟨ha, by simp [oneStep, h1], by simp [oneStep, h1], fun _ _ => rfl⟩
    | some spec =>
      have h1 : (view own w r).made = true := by simp [view, hr]
      have h2 : (view own w r).ctx c = w.ctx c := by simp [view, hc]
      have hp1 : ∀ (f : Nat → Option Ctx) v c', own.ctx c' ≠ r → put f c v c' = f c' := by
        intro f v c' hne
        have : c' ≠ c := fun e => hne (e ▸ hc)
        simp [put, this]
      simp only [oneStep, h1, if_true, h2]
      cases hx : w.ctx c with
      | none => exact ⟨ha, rfl, rfl, fun _ _ => rfl⟩
      | some oc =>
        simp only
        have hv : (view own w r).document = w.docOf r := rfl
        have hsome : (w.docOf r).isSome = spec.isSome := by
          cases spec with
          | none => simp [World.docOf, hr]
          | some d => rw [docOf_some hr]; simp [ha.bound r d hr]
        rw [hv, hsome]
        by_cases he : (spec.isSome || (lib r).ensures oc) = true
        · simp only [he, if_true]
          have h := specEns_ensured ha (lib r) hr
          have hst : (view own (specEns (lib r) w r spec).1 r).stored = (view own w r).stored := by rw [h.view]
          simp only [h.docs]
          generalize hw : (specEns (lib r) w r spec).1 = w' at h hst
          generalize hd : (specEns (lib r) w r spec).2 = d at h
          have hdl := h.apart.bound r d h.refl
          obtain ⟨u1, u2⟩ := upd h.apart r (ds := touched (w'.stored c) ((lib r).touch oc)
              (w'.docs.set d ((lib r).add webhook ((w.docOf r).getD (lib r).fresh) oc).1))
            (ctx' := put w'.ctx c (some ((lib r).add webhook ((w.docOf r).getD (lib r).fresh) oc).2.1)) (st' := remember w'.stored c d) (by simp [touched_length])
            (fun i hi => by
              have hne : d ≠ i := by intro e; exact hi (e ▸ h.refl)
              have hs : w'.stored c i = false := by
                cases hs : w'.stored c i with
                | false => rfl
                | true => exact absurd (hc ▸ h.apart.stored c i hs) hi
              simp [touched_get, hne, hs])
            (hp1 _ _)
            (fun c' hne => by
              have : c' ≠ c := fun e => hne (e ▸ hc)
              funext d'; simp [remember, this])
            (fun c' d' e h' => by
              simp only [remember, Bool.or_eq_true, Bool.and_eq_true, beq_iff_eq] at h'
              rcases h' with ⟨_, h'⟩ | h'
              · rw [h']; exact h.refl
              · exact e ▸ h.apart.stored c' d' h')
          refine ⟨u1, ?_, by trivial, fun r' hne => (u2 r' hne).trans (h.others r' hne)⟩
          refine one_ext ?_ ?_ ?_ ?_ (funext fun c' => ?_)
          · simp [view, h.refl]
          · rw [← hst]
            simp [view, World.docOf, h.refl, touched_get, hdl, hc]
          · simp only [view, h.doc]
          · simp only [view, h.ctx]; exact view_ctx hc _
          · rw [← hst]
            simp only [view, h.refl, remember, beq_self_eq_true, Bool.and_true]
            by_cases e : c' = c
            · subst e; simp [hc]
            · have e' : (c' == c) = false := by simp [e]
              rw [e', Bool.false_or, Bool.false_or]
        · simp only [Bool.not_eq_true] at he
          have hn : spec = none := by
            cases spec with
            | none => rfl
            | some d => cases he
          have hno : w.docOf r = none := by simp [World.docOf, hr, hn]
          have hs : ∀ i, w.stored c i = false := by
            intro i
            cases hs : w.stored c i with
            | false => rfl
            | true => have := ha.stored c i hs; rw [hc, hr, hn] at this; cases this
          simp only [he, hno, Option.getD_none, Bool.false_eq_true, if_false, Bool.and_false, Bool.false_or]
          obtain ⟨u1, u2⟩ := upd ha r (ds := touched (w.stored c) ((lib r).touch oc) w.docs)
            (ctx' := put w.ctx c (some ((lib r).add webhook (lib r).fresh oc).2.1)) (st' := w.stored) (touched_length _ _ _)
            (fun i _ => by simp [touched_get, hs])
            (hp1 _ _) (fun _ _ => rfl) (fun c d e h => e ▸ ha.stored c d h)
          refine ⟨u1, ?_, by trivial, u2⟩
          refine one_ext h1 ?_ rfl (view_ctx hc _) rfl
          simp [view, World.docOf, hr, hn]
  | resolve r ref =>
    simp only [step, Owners.reflector]
    cases hr : w.refl r with
    | none =>
      have h1 : (view own w r).made = false := by simp [view, hr]
      refine ⟨ha, by simp [oneStep, h1], by simp [oneStep, h1], fun _ _ => rfl⟩
    | some spec =>
      have h1 : (view own w r).made = true := by simp [view, hr]
      have hv : (view own w r).document = w.docOf r := rfl
      simp only [oneStep, h1, if_true, hv]
      cases spec with
      | none =>
        have hno : w.docOf r = none := by simp [World.docOf, hr]
        rw [hno]
        exact ⟨ha, rfl, rfl, fun _ _ => rfl⟩
      | some d =>
        have hd := ha.bound r d hr
        have hg := List.getElem?_eq_getElem hd
        simp only [docOf_some hr, hg]
        refine ⟨ha, by trivial, by trivial, fun _ _ => by trivial⟩
  | assign r x => exact absurd hc id

theorem run_view {own : Owners} (lib : Nat → Lib Doc Ctx Res) (r : Nat) : ∀ (cs : List (Cmd Doc Ctx)) (w : World Doc Ctx),
    Apart own w → (∀ c ∈ cs, own.Tidy c) →
    view own (run lib w cs).1 r = (oneRun (lib r) (view own w r) (own.about r cs)).1 ∧
    (run lib w cs).2.filter (fun x => own.reflector x.1 == r) = (oneRun (lib r) (view own w r) (own.about r cs)).2
  | [], _, _, _ => ⟨rfl, rfl⟩
  | c :: cs, w, ha, hc => by
    obtain ⟨h1, h2, h3, h4⟩ := step_view lib ha c (hc c List.mem_cons_self)
    have ih := run_view lib r cs (step lib w c).1 h1 (fun c' h => hc c' (List.mem_cons_of_mem _ h))
    simp only [run, Owners.about]
    by_cases e : own.reflector c = r
    · subst e
      simp only [List.filter_cons, beq_self_eq_true, if_true, oneRun]
      rw [h2] at ih
      refine ⟨ih.1, ?_⟩
      rw [← h3]
      exact congrArg _ ih.2
    · have e' : (own.reflector c == r) = false := by simp [e]
      simp only [List.filter_cons, e', Bool.false_eq_true, if_false]
      rw [h4 r (fun x => e x.symm)] at ih
      exact ih

theorem empty_apart (own : Owners) : Apart own ({} : World Doc Ctx) :=
  ⟨fun _ _ h => (nomatch h), fun _ _ _ h => (nomatch h), fun _ _ h => (nomatch h), fun _ _ h => (nomatch h)⟩

/-- **C97.** In every program that uses pointers to documents and operation contexts only with the reflector they come from,
each reflector behaves as if it were alone: its document, and what all calls about it return, are those of the program that
consists of the steps about it. All pointers that `SpecEns` and `SpecSchema` returned are pointers to this one document. -/
theorem C97_alone (lib : Nat → Lib Doc Ctx Res) (own : Owners) (cs : List (Cmd Doc Ctx)) (hc : ∀ c ∈ cs, own.Tidy c) (r : Nat) :
    (run lib {} cs).1.docOf r = (oneRun (lib r) {} (own.about r cs)).1.document ∧
    (run lib {} cs).2.filter (fun x => own.reflector x.1 == r) = (oneRun (lib r) {} (own.about r cs)).2 := by
  obtain ⟨h1, h2⟩ := run_view (own := own) lib r cs {} (empty_apart own) hc
  have e : view own ({} : World Doc Ctx) r = {} := one_ext rfl rfl (by simp [view]) (by simp [view]) (by simp [view])
  rw [e] at h1 h2
  exact ⟨congrArg One.document h1, h2⟩


theorem specEns_docs (lib : Lib Doc Ctx Res) (w : World Doc Ctx) (r : Nat) (spec : Option Nat) (d : Nat)
    (hd : d < w.docs.length) : (specEns lib w r spec).1.docs[d]? = w.docs[d]? := by
  cases spec with
  | none => simp only [specEns]; exact List.getElem?_append_left hd
  | some d => rfl

theorem specEns_length (lib : Lib Doc Ctx Res) (w : World Doc Ctx) (r : Nat) (spec : Option Nat) :
    w.docs.length ≤ (specEns lib w r spec).1.docs.length := by
  cases spec <;> simp [specEns]

theorem specEns_addr (lib : Lib Doc Ctx Res) (w : World Doc Ctx) (r : Nat) (spec : Option Nat) (d : Nat)
    (hd : d < w.docs.length) (h : (specEns lib w r spec).2 = d) : spec = some d := by
  cases spec with
  | none => simp only [specEns] at h; omega
  | some d' => simp only [specEns] at h; rw [h]

/-- **C97.** In every program, also one that assigns `Spec` or uses contexts with other reflectors: a step never takes a
document away, and it changes a document only if it edits it through a pointer to it, or calls `NewOperationContext`,
`AddOperation` or `AddWebhook` of a reflector whose `Spec` points to it, or changes a context that was added to it. -/
theorem C97_frame (lib : Nat → Lib Doc Ctx Res) (w : World Doc Ctx) (c : Cmd Doc Ctx) (d : Nat) (hd : d < w.docs.length) :
    d < (step lib w c).1.docs.length ∧
    ((step lib w c).1.docs[d]? = w.docs[d]? ∨
      (∃ x f, c = .edit x f ∧ w.doc x = some d) ∨
      (∃ r, w.refl r = some (some d) ∧
        ((∃ x method path, c = .newContext r x method path) ∨ ∃ webhook x, c = .add webhook r x)) ∨
      ∃ x, w.stored x d = true ∧ ((∃ f shows, c = .configure x f shows) ∨ ∃ webhook r, c = .add webhook r x)) := by
  have key : ∀ r spec, w.refl r = some spec → ∀ doc', 
      (((specEns (lib r) w r spec).1.docs.set (specEns (lib r) w r spec).2 doc')[d]? = w.docs[d]? ∨
        w.refl r = some (some d)) := by
    intro r spec hr doc'
    by_cases e : (specEns (lib r) w r spec).2 = d
    · right; rw [hr, specEns_addr _ _ _ _ _ hd e]
    · left
      rw [List.getElem?_set_ne e, specEns_docs _ _ _ _ _ hd]
  have untouched : ∀ (st : Nat → Bool) (f : Doc → Doc) (ds : List Doc), st d = false → (touched st f ds)[d]? = ds[d]? := by
    intro st f ds h
    simp [touched_get, h]
  cases c with
  | newReflector r =>
    simp only [step]
    cases w.refl r with
    | some _ => exact ⟨hd, .inl rfl⟩
    | none =>
      exact ⟨Nat.lt_of_lt_of_le hd (specEns_length (lib r) { w with refl := _ } r none),
        .inl (specEns_docs _ { w with refl := _ } _ _ _ hd)⟩
  | zeroReflector r =>
    simp only [step]
    cases w.refl r <;> exact ⟨hd, .inl rfl⟩
  | specEns r x =>
    simp only [step]
    cases w.refl r with
    | none => exact ⟨hd, .inl rfl⟩
    | some spec => exact ⟨Nat.lt_of_lt_of_le hd (specEns_length _ _ _ _), .inl (specEns_docs _ _ _ _ _ hd)⟩
  | edit x f =>
    simp only [step]
    cases hx : w.doc x with
    | none => exact ⟨hd, .inl rfl⟩
    | some d' =>
      refine ⟨by simpa using hd, ?_⟩
      by_cases e : d' = d
      · exact .inr (.inl ⟨x, f, rfl, by rw [← e]; exact hx⟩)
      · exact .inl (by simp [e])
  | newContext r x method path =>
    simp only [step]
    cases hr : w.refl r with
    | none => exact ⟨hd, .inl rfl⟩
    | some spec =>
      simp only
      cases sanitizeMethodPath method path with
      | error e => exact ⟨hd, .inl rfl⟩
      | ok s =>
        have hl : d < (specEns (lib r) w r spec).1.docs.length := Nat.lt_of_lt_of_le hd (specEns_length _ _ _ _)
        simp only
        split
        · exact ⟨hl, .inl (specEns_docs _ _ _ _ _ hd)⟩
        · split
          · rename_i doc' _ _
            refine ⟨by simpa using hl, (key r spec hr doc').imp id (fun h => .inr (.inl ⟨r, h, .inl ⟨x, method, path, rfl⟩⟩))⟩
          · rename_i doc' _ _
            refine ⟨by simpa using hl, (key r spec hr doc').imp id (fun h => .inr (.inl ⟨r, h, .inl ⟨x, method, path, rfl⟩⟩))⟩
  | configure x f shows =>
    simp only [step]
    refine ⟨by rw [touched_length]; exact hd, ?_⟩
    cases hs : w.stored x d with
    | false => exact .inl (untouched _ _ _ hs)
    | true => exact .inr (.inr (.inr ⟨x, hs, .inl ⟨f, shows, rfl⟩⟩))
  | add webhook r x =>
    simp only [step]
    cases hr : w.refl r with
    | none => exact ⟨hd, .inl rfl⟩
    | some spec =>
      cases w.ctx x with
      | none => exact ⟨hd, .inl rfl⟩
      | some oc =>
        have hl : d < (specEns (lib r) w r spec).1.docs.length := Nat.lt_of_lt_of_le hd (specEns_length _ _ _ _)
        have hst : (specEns (lib r) w r spec).1.stored = w.stored := by cases spec <;> rfl
        cases hs : w.stored x d with
        | true =>
          refine ⟨?_, .inr (.inr (.inr ⟨x, hs, .inr ⟨webhook, r, rfl⟩⟩))⟩
          simp only
          split
          · split
            · exact hl
            · simp only [touched_length, List.length_set]; exact hl
          · simp only [touched_length]; exact hd
        | false =>
          simp only
          split
          · split
            · exact ⟨hl, .inl (specEns_docs _ _ _ _ _ hd)⟩
            · refine ⟨by simp only [touched_length, List.length_set]; exact hl, ?_⟩
              rw [untouched _ _ _ (by rw [hst]; exact hs)]
              exact (key r spec hr _).imp id (fun h => .inr (.inl ⟨r, h, .inr ⟨webhook, x, rfl⟩⟩))
          · exact ⟨by simp only [touched_length]; exact hd, .inl (untouched _ _ _ hs)⟩
  | resolve r ref =>
    simp only [step]
    cases w.refl r with
    | none => exact ⟨hd, .inl rfl⟩
    | some spec =>
      cases spec with
      | none => exact ⟨hd, .inl rfl⟩
      | some d' => simp only; split <;> exact ⟨hd, .inl rfl⟩
  | assign r x =>
    simp only [step]
    split
    · exact ⟨hd, .inl rfl⟩
    · split <;> exact ⟨hd, .inl rfl⟩
    · exact ⟨hd, .inl rfl⟩

theorem specEns_refl (lib : Lib Doc Ctx Res) (w : World Doc Ctx) {r r' : Nat} {spec : Option Nat} {d : Nat}
    (hs : w.refl r' = some spec) (h : w.refl r = some (some d)) : (specEns lib w r' spec).1.refl r = some (some d) := by
  cases spec with
  | some d => exact h
  | none =>
    simp only [specEns, put]
    split
    · rename_i e; rw [e, hs] at h; cases h
    · exact h

theorem step_refl (lib : Nat → Lib Doc Ctx Res) (w : World Doc Ctx) (c : Cmd Doc Ctx) {r d : Nat}
    (hc : ∀ x, c ≠ .assign r x) (h : w.refl r = some (some d)) : (step lib w c).1.refl r = some (some d) := by
  cases c with
  | newReflector r' =>
    simp only [step]
    cases hr : w.refl r' with
    | some _ => exact h
    | none =>
      have hne : r ≠ r' := by intro e; rw [← e, h] at hr; cases hr
      simp [specEns, put, hne, h]
  | zeroReflector r' =>
    simp only [step]
    cases hr : w.refl r' with
    | some _ => exact h
    | none =>
      have hne : r ≠ r' := by intro e; rw [← e, h] at hr; cases hr
      simp [put, hne, h]
  | specEns r' x =>
    simp only [step]
    cases hr : w.refl r' with
    | none => exact h
    | some spec => exact specEns_refl _ w hr h
  | edit x f => simp only [step]; cases w.doc x <;> exact h
  | newContext r' x method path =>
    simp only [step]
    cases hr : w.refl r' with
    | none => exact h
    | some spec =>
      have := specEns_refl (lib r') w hr h
      simp only
      repeat' split
      all_goals first | exact h | exact this
  | configure x f shows => exact h
  | add webhook r' x =>
    simp only [step]
    cases hr : w.refl r' with
    | none => exact h
    | some spec =>
      have := specEns_refl (lib r') w hr h
      repeat' split
      all_goals first | exact h | (simp_all; done) | (simp_all; exact this)
  | resolve r' ref =>
    simp only [step]
    repeat' split
    all_goals exact h
  | assign r' x =>
    have hne : r ≠ r' := fun e => hc x (by rw [e])
    simp only [step]
    repeat' split
    all_goals first | exact h | (simp only [put, hne, if_false]; exact h)

theorem run_refl (lib : Nat → Lib Doc Ctx Res) {r d : Nat} : ∀ (cs : List (Cmd Doc Ctx)) (w : World Doc Ctx),
    (∀ c ∈ cs, ∀ x, c ≠ .assign r x) → w.refl r = some (some d) → (run lib w cs).1.refl r = some (some d)
  | [], _, _, h => h
  | c :: cs, w, hc, h =>
    run_refl lib cs _ (fun c' h' => hc c' (List.mem_cons_of_mem _ h')) (step_refl lib w c (hc c List.mem_cons_self) h)

theorem run_append (lib : Nat → Lib Doc Ctx Res) : ∀ (cs cs' : List (Cmd Doc Ctx)) (w : World Doc Ctx),
    (run lib w (cs ++ cs')).1 = (run lib (run lib w cs).1 cs').1
  | [], _, _ => rfl
  | _ :: cs, cs', _ => run_append lib cs cs' _

theorem specEns_put (lib : Lib Doc Ctx Res) (w : World Doc Ctx) (r : Nat) (spec : Option Nat) (h : w.refl r = some spec) :
    (specEns lib w r spec).1.refl r = some (some (specEns lib w r spec).2) := by
  cases spec with
  | none => simp [specEns, put]
  | some d => exact h

/-- **C97.** `SpecEns` and `SpecSchema` of a reflector return the same pointer every time, whatever the program does
meanwhile except for assigning `Spec` of this reflector. -/
theorem C97_same (lib : Nat → Lib Doc Ctx Res) (w : World Doc Ctx) (r x y : Nat) (cs : List (Cmd Doc Ctx))
    (hr : (w.refl r).isSome) (hc : ∀ c ∈ cs, ∀ z, c ≠ .assign r z) :
    ∃ d, (run lib w [.specEns r x]).1.doc x = some d ∧
      (run lib w (.specEns r x :: cs ++ [.specEns r y])).1.doc y = some d := by
  cases hs : w.refl r with
  | none => rw [hs] at hr; cases hr
  | some spec =>
    refine ⟨(specEns (lib r) w r spec).2, by simp [run, step, hs, put], ?_⟩
    rw [List.cons_append]
    show (run lib (step lib w (.specEns r x)).1 (cs ++ [.specEns r y])).1.doc y = _
    rw [run_append]
    have h := run_refl lib (r := r) (d := (specEns (lib r) w r spec).2) cs (step lib w (.specEns r x)).1 hc
      (by simp only [step, hs]; exact specEns_put (lib r) w r spec hs)
    generalize (run lib (step lib w (.specEns r x)).1 cs).1 = w' at h ⊢
    generalize (specEns (lib r) w r spec).2 = d at h ⊢
    simp [run, step, h, specEns, put]

/-- A reflector whose document may be missing, and one that has a new document instead. -/
structure Later (lib : Lib Doc Ctx Res) (a b : One Doc Ctx) : Prop where
  made : a.made = true ∧ b.made = true
  document : b.document = some (a.document.getD lib.fresh)
  held : a.held = b.held
  there : ∀ x, a.held x = true → a.document.isSome
  ctx : a.ctx = b.ctx
  stored : a.stored = b.stored
  added : ∀ c, a.stored c = true → a.document.isSome
  made_by : ∀ c, (a.ctx c).isSome → a.document.isSome

theorem later_step {lib : Lib Doc Ctx Res} (hl : ∀ ref, lib.resolve lib.fresh ref = .ok none) {a b : One Doc Ctx} (h : Later lib a b) (c : Cmd Doc Ctx) :
    Later lib (oneStep lib a c).1 (oneStep lib b c).1 ∧ (oneStep lib a c).2 = (oneStep lib b c).2 := by
  obtain ⟨⟨hm1, hm2⟩, hd, hh, ht, hx, hs, hb, hm⟩ := h
  rcases a with ⟨am, ad, ah, ac, as⟩
  rcases b with ⟨bm, bd, bh, bc, bs⟩
  simp only at hm1 hm2 hd hh ht hx hs hb hm
  subst hm1 hm2 hd hh hx hs
  cases c with
  | newReflector r => exact ⟨⟨⟨rfl, rfl⟩, rfl, rfl, ht, rfl, rfl, hb, hm⟩, rfl⟩
  | zeroReflector r => exact ⟨⟨⟨rfl, rfl⟩, rfl, rfl, ht, rfl, rfl, hb, hm⟩, rfl⟩
  | specEns r x => exact ⟨⟨⟨rfl, rfl⟩, rfl, rfl, fun _ _ => rfl, rfl, rfl, fun _ _ => rfl, fun _ _ => rfl⟩, rfl⟩
  | edit x f =>
    simp only [oneStep]
    by_cases he : ah x = true
    · have := ht x he
      cases ad with
      | none => cases this
      | some d => simp only [he, if_true]; exact ⟨⟨⟨rfl, rfl⟩, rfl, rfl, fun _ _ => rfl, rfl, rfl, fun _ _ => rfl, fun _ _ => rfl⟩, by trivial⟩
    · simp only [he]; exact ⟨⟨⟨rfl, rfl⟩, rfl, rfl, ht, rfl, rfl, hb, hm⟩, rfl⟩
  | newContext r c method path =>
    simp only [oneStep, if_true]
    cases sanitizeMethodPath method path with
    | error e =>
      refine ⟨⟨⟨rfl, rfl⟩, rfl, rfl, ht, rfl, rfl, fun c' h => ?_, fun c' h => ?_⟩, rfl⟩
      · simp only [Bool.and_eq_true] at h
        exact hb c' h.2
      · simp only [put] at h
        split at h
        · cases h
        · exact hm c' h
    | ok s =>
      simp only [Option.getD_some]
      rcases lib.newContext (ad.getD lib.fresh) method path with ⟨doc, res⟩
      cases res <;> exact ⟨⟨⟨rfl, rfl⟩, rfl, rfl, fun _ _ => rfl, rfl, rfl, fun _ _ => rfl, fun _ _ => rfl⟩, by trivial⟩
  | configure c f shows =>
    simp only [oneStep]
    cases he : as c with
    | true =>
      have := hb c he
      cases ad with
      | none => cases this
      | some d => exact ⟨⟨⟨rfl, rfl⟩, rfl, rfl, fun _ _ => rfl, rfl, rfl, fun _ _ => rfl, fun _ _ => rfl⟩, by trivial⟩
    | false =>
      refine ⟨⟨⟨rfl, rfl⟩, rfl, rfl, ht, rfl, rfl, hb, fun c' h => ?_⟩, by trivial⟩
      simp only [put] at h
      split at h
      · simp only [Option.isSome_map] at h; exact hm c h
      · exact hm c' h
  | add webhook r c =>
    simp only [oneStep, if_true]
    cases hx : ac c with
    | none => exact ⟨⟨⟨rfl, rfl⟩, rfl, rfl, ht, rfl, rfl, hb, hm⟩, rfl⟩
    | some oc =>
      cases ad with
      | some d =>
        simp only [Option.getD_some, Option.isSome_some, Bool.true_or, if_true]
        exact ⟨⟨⟨rfl, rfl⟩, rfl, rfl, fun _ _ => rfl, rfl, rfl, fun _ _ => rfl, fun _ _ => rfl⟩, by trivial⟩
      | none => cases hm c (by rw [hx]; rfl)
  | resolve r ref =>
    simp only [oneStep, if_true]
    cases ad with
    | none => exact ⟨⟨⟨rfl, rfl⟩, rfl, rfl, ht, rfl, rfl, hb, hm⟩, by simp [hl]⟩
    | some d => exact ⟨⟨⟨rfl, rfl⟩, rfl, rfl, ht, rfl, rfl, hb, hm⟩, rfl⟩
  | assign r x => exact ⟨⟨⟨rfl, rfl⟩, rfl, rfl, ht, rfl, rfl, hb, hm⟩, rfl⟩

theorem later_run {lib : Lib Doc Ctx Res} (hl : ∀ ref, lib.resolve lib.fresh ref = .ok none) : ∀ (cs : List (Cmd Doc Ctx)) {a b : One Doc Ctx}, Later lib a b →
    Later lib (oneRun lib a cs).1 (oneRun lib b cs).1 ∧ (oneRun lib a cs).2 = (oneRun lib b cs).2
  | [], _, _, h => ⟨h, rfl⟩
  | c :: cs, a, b, h => by
    obtain ⟨h1, h2⟩ := later_step hl h c
    obtain ⟨h3, h4⟩ := later_run hl cs h1
    exact ⟨h3, by simp only [oneRun]; rw [h2, h4]⟩

theorem same_replies {α β : Type} {f : α → Nat} : ∀ {l1 l2 : List (α × β)}, l1.map Prod.fst = l2.map Prod.fst →
    (∀ r, l1.filter (fun x => f x.1 == r) = l2.filter (fun x => f x.1 == r)) → l1 = l2
  | [], [], _, _ => rfl
  | [], _ :: _, h, _ => by cases h
  | _ :: _, [], h, _ => by cases h
  | (c, a) :: l1, (c', b) :: l2, h, hf => by
    simp only [List.map_cons, List.cons.injEq] at h
    obtain ⟨rfl, h⟩ := h
    have h0 := hf (f c)
    simp only [List.filter_cons, beq_self_eq_true, if_true, List.cons.injEq] at h0
    rw [h0.1, same_replies h]
    intro r
    have := hf r
    by_cases e : (f c == r) = true
    · simp only [List.filter_cons, e, if_true, List.cons.injEq] at this
      exact this.2
    · simp only [List.filter_cons, e] at this
      exact this

theorem run_cmds (lib : Nat → Lib Doc Ctx Res) : ∀ (cs : List (Cmd Doc Ctx)) (w : World Doc Ctx),
    (run lib w cs).2.map Prod.fst = cs
  | [], _ => rfl
  | c :: cs, w => by simp only [run, List.map_cons, run_cmds lib cs]

theorem newOrZero {lib : Nat → Lib Doc Ctx Res} {own : Owners} {r : Nat} (hl : ∀ ref, (lib r).resolve (lib r).fresh ref = .ok none) (cs : List (Cmd Doc Ctx))
    (hc : ∀ c ∈ cs, own.Tidy c) :
    (run lib {} (.newReflector r :: cs)).1.docOf r = some (((run lib {} (.zeroReflector r :: cs)).1.docOf r).getD (lib r).fresh) ∧
    (∀ r', r' ≠ r → (run lib {} (.newReflector r :: cs)).1.docOf r' = (run lib {} (.zeroReflector r :: cs)).1.docOf r') ∧
    (run lib {} (.newReflector r :: cs)).2.tail = (run lib {} (.zeroReflector r :: cs)).2.tail := by
  have hn : ∀ c ∈ (.newReflector r :: cs : List (Cmd Doc Ctx)), own.Tidy c := by
    intro c h; cases h with
    | head => trivial
    | tail _ h => exact hc c h
  have hz : ∀ c ∈ (.zeroReflector r :: cs : List (Cmd Doc Ctx)), own.Tidy c := by
    intro c h; cases h with
    | head => trivial
    | tail _ h => exact hc c h
  have hlater : Later (lib r) (oneStep (lib r) {} (.zeroReflector r)).1 (oneStep (lib r) {} (.newReflector r)).1 :=
    ⟨⟨rfl, rfl⟩, rfl, rfl, fun _ h => (nomatch h), rfl, rfl, fun _ h => (nomatch h), fun _ h => (nomatch h)⟩
  have hlr := later_run hl (own.about r cs) hlater
  have rN : own.reflector (.newReflector r : Cmd Doc Ctx) = r := rfl
  have rZ : own.reflector (.zeroReflector r : Cmd Doc Ctx) = r := rfl
  have eN : own.about r (.newReflector r :: cs) = .newReflector r :: own.about r cs := by simp [Owners.about, rN]
  have eZ : own.about r (.zeroReflector r :: cs) = .zeroReflector r :: own.about r cs := by simp [Owners.about, rZ]
  have oN : ∀ r', r' ≠ r → own.about r' (.newReflector r :: cs) = own.about r' cs := by
    intro r' hne
    simp [Owners.about, rN, hne.symm]
  have oZ : ∀ r', r' ≠ r → own.about r' (.zeroReflector r :: cs) = own.about r' cs := by
    intro r' hne
    simp [Owners.about, rZ, hne.symm]
  refine ⟨?_, ?_, ?_⟩
  · rw [(C97_alone lib own _ hn r).1, (C97_alone lib own _ hz r).1, eN, eZ]
    exact hlr.1.document
  · intro r' hne
    rw [(C97_alone lib own _ hn r').1, (C97_alone lib own _ hz r').1, oN r' hne, oZ r' hne]
  · simp only [run, List.tail_cons]
    refine same_replies (f := own.reflector) (by rw [run_cmds, run_cmds]) fun r' => ?_
    have h1 := (C97_alone lib own _ hn r').2
    have h2 := (C97_alone lib own _ hz r').2
    simp only [run] at h1 h2
    by_cases e : r' = r
    · subst e
      rw [eN] at h1
      rw [eZ] at h2
      simp only [List.filter_cons, rN, rZ, beq_self_eq_true, if_true, oneRun, List.cons.injEq] at h1 h2
      rw [h1.2, h2.2]
      exact hlr.2.symm
    · rw [oN r' e] at h1
      rw [oZ r' e] at h2
      have eb : (r == r') = false := by simp [Ne.symm e]
      simp only [List.filter_cons, rN, rZ, eb, Bool.false_eq_true, if_false] at h1 h2
      rw [h1, h2]

/-- **C97, 3.0.** `&Reflector{}` does what `NewReflector()` does: every later call returns the same, and the documents are the
same in the end, except that the document of `&Reflector{}` is missing instead of being new if nothing needed it. -/
theorem C97_zero30 (env : Nat → Env V30.OS) (o : Nat → Order) (touch : Nat → OpCtx V30.OS → V30.Spec V30.OS → V30.Spec V30.OS)
    (own : Owners) (r : Nat) (cs : List (Cmd (V30.Spec V30.OS) (OpCtx V30.OS))) (hc : ∀ c ∈ cs, own.Tidy c) :
    let lib := fun r => lib30 (env r) (o r) (touch r)
    let made := run lib {} (.newReflector r :: cs)
    let zero := run lib {} (.zeroReflector r :: cs)
    made.1.docOf r = some ((zero.1.docOf r).getD { openapi := "3.0.3" }) ∧
    (∀ r', r' ≠ r → made.1.docOf r' = zero.1.docOf r') ∧ made.2.tail = zero.2.tail :=
  newOrZero (lib := fun r => lib30 (env r) (o r) (touch r)) (fun _ => rfl) cs hc

/-- **C97, 3.1.** -/
theorem C97_zero31 {S : Type} (toSimpleMap : JS → Except String S) (fromSimpleMap : Option S → Option JS) (env : Nat → Env S)
    (touch : Nat → OpCtx S → V31.Spec S → V31.Spec S) (own : Owners) (r : Nat) (cs : List (Cmd (V31.Spec S) (OpCtx S)))
    (hc : ∀ c ∈ cs, own.Tidy c) :
    let lib := fun r => lib31 toSimpleMap fromSimpleMap (env r) (touch r)
    let made := run lib {} (.newReflector r :: cs)
    let zero := run lib {} (.zeroReflector r :: cs)
    made.1.docOf r = some ((zero.1.docOf r).getD { openapi := "3.1.0" }) ∧
    (∀ r', r' ≠ r → made.1.docOf r' = zero.1.docOf r') ∧ made.2.tail = zero.2.tail :=
  newOrZero (lib := fun r => lib31 toSimpleMap fromSimpleMap (env r) (touch r)) (fun _ => rfl) cs hc

theorem specEns_all {P : Doc → Prop} {lib : Lib Doc Ctx Res} (hf : P lib.fresh) {w : World Doc Ctx} (hw : ∀ doc ∈ w.docs, P doc)
    (r : Nat) (spec : Option Nat) : ∀ doc ∈ (specEns lib w r spec).1.docs, P doc := by
  cases spec with
  | some d => exact hw
  | none =>
    intro doc h
    simp only [specEns, List.mem_append, List.mem_singleton] at h
    exact h.elim (hw doc) (fun e => e ▸ hf)

theorem touched_all {P : Doc → Prop} {ds : List Doc} (h : ∀ doc ∈ ds, P doc) {st : Nat → Bool} {f : Doc → Doc}
    (hf : ∀ doc, P doc → P (f doc)) : ∀ doc ∈ touched st f ds, P doc := by
  intro doc hm
  obtain ⟨i, hi⟩ := List.getElem?_of_mem hm
  rw [touched_get] at hi
  cases hd : ds[i]? with
  | none => rw [hd] at hi; cases hi
  | some d =>
    rw [hd] at hi
    have hp := h d (List.mem_of_getElem? hd)
    simp only [Option.map_some, Option.some.injEq] at hi
    rw [← hi]
    split
    · exact hf d hp
    · exact hp

theorem set_all {P : Doc → Prop} {ds : List Doc} (h : ∀ doc ∈ ds, P doc) {d : Nat} {doc' : Doc} (hp : P doc') :
    ∀ doc ∈ ds.set d doc', P doc := by
  intro doc hm
  rcases List.mem_or_eq_of_mem_set hm with h' | h'
  · exact h doc h'
  · exact h' ▸ hp

/-- What holds of new documents and is kept by the methods of reflectors and by the program's own edits holds of all
documents. -/
theorem step_all {P : Doc → Prop} (lib : Nat → Lib Doc Ctx Res) (hf : ∀ r, P (lib r).fresh)
    (hn : ∀ r doc method path, P doc → P ((lib r).newContext doc method path).1)
    (hadd : ∀ r webhook doc oc, P doc → P ((lib r).add webhook doc oc).1)
    (ht : ∀ r oc doc, P doc → P ((lib r).touch oc doc))
    {w : World Doc Ctx} (hw : ∀ doc ∈ w.docs, P doc) (c : Cmd Doc Ctx) (he : ∀ x f, c = .edit x f → ∀ doc, P doc → P (f doc))
    (hs : ∀ x f shows, c = .configure x f shows → ∀ doc, P doc → P (shows doc)) :
    ∀ doc ∈ (step lib w c).1.docs, P doc := by
  cases c with
  | newReflector r =>
    simp only [step]
    cases w.refl r with
    | some _ => exact hw
    | none => exact specEns_all (hf r) (w := { w with refl := _ }) hw r none
  | zeroReflector r => simp only [step]; cases w.refl r <;> exact hw
  | specEns r x =>
    simp only [step]
    cases w.refl r with
    | none => exact hw
    | some spec => exact specEns_all (hf r) hw r spec
  | edit x f =>
    simp only [step]
    cases w.doc x with
    | none => exact hw
    | some d =>
      intro doc hm
      obtain ⟨i, hi, e⟩ := List.getElem_of_mem hm
      have hi' : i < w.docs.length := by simpa using hi
      simp only [List.getElem_modify] at e
      have := hw _ (List.getElem_mem hi')
      split at e
      · rw [← e]; exact he x f rfl _ this
      · rw [← e]; exact this
  | newContext r x method path =>
    simp only [step]
    cases hr : w.refl r with
    | none => exact hw
    | some spec =>
      have hall := specEns_all (hf r) hw r spec
      simp only
      cases sanitizeMethodPath method path with
      | error e => exact hw
      | ok s =>
        simp only
        split
        · exact hall
        · rename_i doc hdoc
          have hp := hn r doc method path (hall doc (List.mem_of_getElem? hdoc))
          split
          · rename_i e; rw [e] at hp; exact set_all hall hp
          · rename_i e; rw [e] at hp; exact set_all hall hp
  | configure x f shows => exact touched_all hw (hs x f shows rfl)
  | add webhook r x =>
    simp only [step]
    cases w.refl r with
    | none => exact hw
    | some spec =>
      cases w.ctx x with
      | none => exact hw
      | some oc =>
        have hall := specEns_all (hf r) hw r spec
        simp only
        split
        · split
          · exact hall
          · rename_i doc hdoc
            exact touched_all (set_all hall (hadd r webhook doc oc (hall doc (List.mem_of_getElem? hdoc)))) (ht r oc)
        · exact touched_all hw (ht r oc)
  | resolve r ref =>
    simp only [step]
    repeat' split
    all_goals exact hw
  | assign r x =>
    simp only [step]
    repeat' split
    all_goals exact hw

theorem run_all {P : Doc → Prop} (lib : Nat → Lib Doc Ctx Res) (hf : ∀ r, P (lib r).fresh)
    (hn : ∀ r doc method path, P doc → P ((lib r).newContext doc method path).1)
    (hadd : ∀ r webhook doc oc, P doc → P ((lib r).add webhook doc oc).1)
    (ht : ∀ r oc doc, P doc → P ((lib r).touch oc doc)) : ∀ (cs : List (Cmd Doc Ctx)) (w : World Doc Ctx),
    (∀ doc ∈ w.docs, P doc) → (∀ x f, .edit x f ∈ cs → ∀ doc, P doc → P (f doc)) →
    (∀ x f shows, .configure x f shows ∈ cs → ∀ doc, P doc → P (shows doc)) → ∀ doc ∈ (run lib w cs).1.docs, P doc
  | [], _, hw, _, _ => hw
  | c :: cs, _, hw, he, hs =>
    run_all lib hf hn hadd ht cs _
      (step_all lib hf hn hadd ht hw c (fun x f e => he x f (e ▸ List.mem_cons_self))
        (fun x f shows e => hs x f shows (e ▸ List.mem_cons_self)))
      (fun x f h => he x f (List.mem_cons_of_mem _ h)) (fun x f shows h => hs x f shows (List.mem_cons_of_mem _ h))

theorem docOf_mem {w : World Doc Ctx} {r : Nat} {doc : Doc} (h : w.docOf r = some doc) : doc ∈ w.docs := by
  simp only [World.docOf] at h
  split at h
  · exact List.mem_of_getElem? h
  · cases h

theorem addOperation_openapi30 {S : Type} (sp : V30.Spec S) (m p : String) (op : Operation S) :
    (sp.addOperation m p op).1.openapi = sp.openapi := by
  simp only [V30.Spec.addOperation, V30.Spec.setupOperation]
  repeat' split
  all_goals rfl

theorem addOperation_openapi31 {S : Type} (sp : V31.Spec S) (m p : String) (op : Operation S) :
    (sp.addOperation m p op).1.openapi = sp.openapi := by
  simp only [V31.Spec.addOperation, V31.Spec.setupOperation, V31.Spec.editInPlace]
  repeat' split
  all_goals rfl

theorem addWebhook_openapi31 {S : Type} (sp : V31.Spec S) (m p : String) (op : Operation S) :
    (sp.addWebhook m p op).1.openapi = sp.openapi := by
  simp only [V31.Spec.addWebhook]
  repeat' split
  all_goals rfl

/-- **C97, 3.0.** As long as the program's own edits keep the version of the document, all documents of reflectors say
"3.0.3". -/
theorem C97_version30 (env : Nat → Env V30.OS) (o : Nat → Order) (touch : Nat → OpCtx V30.OS → V30.Spec V30.OS → V30.Spec V30.OS)
    (cs : List (Cmd (V30.Spec V30.OS) (OpCtx V30.OS)))
    (he : ∀ x f, .edit x f ∈ cs → ∀ doc, (f doc).openapi = doc.openapi)
    (hs : ∀ x f shows, .configure x f shows ∈ cs → ∀ doc, (shows doc).openapi = doc.openapi)
    (ht : ∀ r oc doc, (touch r oc doc).openapi = doc.openapi) (r : Nat) (doc : V30.Spec V30.OS)
    (h : (run (fun r => lib30 (env r) (o r) (touch r)) {} cs).1.docOf r = some doc) : doc.openapi = "3.0.3" := by
  refine run_all (P := fun d => d.openapi = "3.0.3") (fun r => lib30 (env r) (o r) (touch r)) (fun _ => rfl)
    (fun _ _ _ _ h => h) ?_ (fun r oc doc hd => (ht r oc doc).trans hd) cs {}
    (fun _ h => (nomatch h)) (fun x f hx doc hd => (he x f hx doc).trans hd)
    (fun x f shows hx doc hd => (hs x f shows hx doc).trans hd) doc (docOf_mem h)
  intro r webhook doc oc hd
  simp only [lib30, V30.addOperation]
  split
  · simp only [addOperation_openapi30]; exact hd
  · exact hd

/-- **C97, 3.1.** -/
theorem C97_version31 {S : Type} (toSimpleMap : JS → Except String S) (fromSimpleMap : Option S → Option JS) (env : Nat → Env S)
    (touch : Nat → OpCtx S → V31.Spec S → V31.Spec S)
    (cs : List (Cmd (V31.Spec S) (OpCtx S))) (he : ∀ x f, .edit x f ∈ cs → ∀ doc, (f doc).openapi = doc.openapi)
    (hs : ∀ x f shows, .configure x f shows ∈ cs → ∀ doc, (shows doc).openapi = doc.openapi)
    (ht : ∀ r oc doc, (touch r oc doc).openapi = doc.openapi) (r : Nat)
    (doc : V31.Spec S) (h : (run (fun r => lib31 toSimpleMap fromSimpleMap (env r) (touch r)) {} cs).1.docOf r = some doc) :
    doc.openapi = "3.1.0" := by
  refine run_all (P := fun d => d.openapi = "3.1.0") (fun r => lib31 toSimpleMap fromSimpleMap (env r) (touch r)) (fun _ => rfl)
    (fun _ d _ _ (h : d.openapi = _) => h) ?_ (fun r oc doc hd => (ht r oc doc).trans hd) cs {}
    (fun _ h => (nomatch h)) (fun x f hx doc hd => (he x f hx doc).trans hd)
    (fun x f shows hx doc hd => (hs x f shows hx doc).trans hd) doc (docOf_mem h)
  intro r webhook doc oc hd
  simp only [lib31]
  cases webhook
  · simp only [Bool.false_eq_true, if_false, V31.addOperation]
    split
    · simp only [addOperation_openapi31]; exact hd
    · exact hd
  · simp only [if_true, V31.addWebhook]
    split
    · simp only [addWebhook_openapi31]; exact hd
    · exact hd

/-- Pointers and contexts with even numbers belong to reflector 0, the others to reflector 1. -/
def caseOwners : Owners := ⟨fun x => x % 2, fun c => c % 2⟩

/-- Two reflectors, one made with `NewReflector` and one with `&Reflector{}`, used in turn: each gets a title through a
pointer, and an operation of the same method and path. -/
def caseProgram : List (Cmd (V30.Spec V30.OS) (OpCtx V30.OS)) :=
  [.newReflector 0, .zeroReflector 1, .resolve 1 "#/components/schemas/Pet", .newContext 0 0 "GET" "/pets",
    .specEns 0 0, .newContext 1 1 "BREW" "/pets", .newContext 1 1 "GET" "/pets", .configure 1 (fun c => { c with op := { c.op with summary := some "List" } }) id,
    .edit 0 (fun d => { d with title := "A" }), .add false 1 1, .specEns 1 1, .edit 1 (fun d => { d with title := "B" }),
    .configure 1 (fun c => { c with op := { c.op with summary := some "All" } }) (fun d => { d with description := some "seen" }),
    .add false 0 0, .add false 0 0]

def caseLib : Nat → Lib (V30.Spec V30.OS) (OpCtx V30.OS) Resolved :=
  fun _ => lib30 ⟨{}, .ok false, fun e => "reflect: " ++ e, fun _ => .ok ""⟩ Order.id (fun _ d => d)

/-- The program meets the hypotheses of `C97_alone`, and in the end the reflectors have different documents. -/
theorem C97_case : (∀ c ∈ caseProgram, caseOwners.Tidy c) ∧
    ((run caseLib {} caseProgram).1.docOf 0).map (fun d => (d.title, d.description, (d.op? "/pets" "get").map (·.summary))) =
      some ("A", none, some none) ∧
    ((run caseLib {} caseProgram).1.docOf 1).map (fun d => (d.title, d.description, (d.op? "/pets" "get").map (·.summary))) =
      some ("B", some "seen", some (some "List")) := by
  refine ⟨?_, by decide +kernel, by decide +kernel⟩
  intro c h
  simp only [caseProgram, List.mem_cons, List.not_mem_nil, or_false] at h
  rcases h with h | h | h | h | h | h | h | h | h | h | h | h | h | h | h <;> subst h <;> first | trivial | rfl

end Verif
