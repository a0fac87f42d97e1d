import Verif.Lemmas.HeaderName
import Verif.Lemmas.Response

/-!
# Lemmas about schema walkers
-/

namespace Verif
variable {S : Type}

theorem range_filterMap {α : Type} (xs : List α) : (List.range xs.length).filterMap (xs[·]?) = xs := by
  induction xs with
  | nil => rfl
  | cons x xs ih =>
    rw [List.length_cons, List.range_succ_eq_map, List.filterMap_cons_some (b := x) (by rfl), List.filterMap_map]
    congr 1

theorem inOrder_perm {α : Type} (o : Order) (clock : Nat) (xs : List α) : (inOrder o clock xs).Perm xs := by
  have := (o.perm clock xs.length).filterMap (xs[·]?)
  rwa [range_filterMap] at this

/-- The action tells about the places. -/
def Sim (cb : Callback) (a : Act (List WalkCall)) (sites : List Site) : Prop :=
  ∀ before, ∃ cs, (a before).1 = before ++ cs ∧ Walked cb before sites cs (a before).2

theorem Walked.append {cb : Callback} {before : List WalkCall} {t1 t2 : List Site} {cs1 cs2 : List WalkCall} {out : Out}
    (h1 : Walked cb before t1 cs1 .ok) (h2 : Walked cb (before ++ cs1) t2 cs2 out) :
    Walked cb before (t1 ++ t2) (cs1 ++ cs2) out := by
  generalize hk : Out.ok = k at h1
  induction h1 with
  | finished => simpa using h2
  | broken => cases hk
  | failed => cases hk
  | next a b _ ih => exact .next a b (ih (by simpa using h2) hk)

theorem Walked.more {cb : Callback} {before : List WalkCall} {t1 t2 : List Site} {cs1 : List WalkCall} {out : Out}
    (h1 : Walked cb before t1 cs1 out) (hout : out ≠ .ok) : Walked cb before (t1 ++ t2) cs1 out := by
  induction h1 with
  | finished => exact absurd rfl hout
  | broken h => exact .broken h
  | failed a b => exact .failed a b
  | next a b _ ih => exact .next a b (ih hout)

theorem Sim.nil {cb : Callback} : Sim cb (fun b => (b, .ok)) [] := fun before => ⟨[], by simp, .finished⟩

theorem Sim.seq {cb : Callback} {a b c : Act (List WalkCall)} {t1 t2 : List Site} (h1 : Sim cb a t1) (h2 : Sim cb b t2)
    (hok : ∀ s s', a s = (s', .ok) → c s = b s') (hbad : ∀ s s' out, a s = (s', out) → out ≠ .ok → c s = (s', out)) :
    Sim cb c (t1 ++ t2) := by
  intro before
  obtain ⟨cs, e, w⟩ := h1 before
  rcases ha : a before with ⟨s, out⟩
  rw [ha] at e w
  by_cases ho : out = .ok
  · subst ho
    rw [hok _ _ ha]
    obtain ⟨cs2, e2, w2⟩ := h2 s
    simp only at e w
    subst e
    exact ⟨cs ++ cs2, by rw [e2, List.append_assoc], w.append w2⟩
  · rw [hbad _ _ _ ha ho]
    exact ⟨cs, e, w.more ho⟩

theorem Sim.fold {α : Type} {cb : Callback} {f : α → Act (List WalkCall)} {xs : List α} {ls : List (List Site)}
    (h : Pointwise (fun x l => Sim cb (f x) l) xs ls) : Sim cb (foldActs f xs) ls.flatten := by
  induction h with
  | nil => exact Sim.nil
  | cons h1 _ ih =>
    refine Sim.seq h1 ih (fun s s' h => by simp only [foldActs, h]) (fun s s' out h ho => ?_)
    simp only [foldActs, h]
    cases out with
    | ok => exact absurd rfl ho
    | err => rfl
    | panic => rfl

theorem pointwise_of_forall {α β : Type} {R : α → β → Prop} (xs : List α) (h : ∀ x ∈ xs, ∃ y, R x y) :
    ∃ ys, Pointwise R xs ys := by
  induction xs with
  | nil => exact ⟨[], .nil⟩
  | cons x xs ih =>
    obtain ⟨y, hy⟩ := h x List.mem_cons_self
    obtain ⟨ys, hys⟩ := ih fun z hz => h z (List.mem_cons_of_mem _ hz)
    exact ⟨y :: ys, .cons hy hys⟩

theorem pointwise_left {α β : Type} {R Q : α → β → Prop} (hi : ∀ a b, R a b → Q a b) {xs : List α} {ys : List β}
    (h : Pointwise R xs ys) : Pointwise Q xs ys := by
  induction h with
  | nil => exact .nil
  | cons a _ ih => exact .cons (hi _ _ a) ih

theorem callCb_sim (cb : Callback) (c : WalkCall) (t : Site) (h : TellsAbout c t) : Sim cb (callCb cb t.label c) [t] := by
  intro before
  refine ⟨[c], ?_⟩
  unfold callCb
  cases hc : cb before c with
  | none => exact ⟨rfl, .next h hc .finished⟩
  | some e => exact ⟨rfl, .failed h hc⟩

theorem panic_sim (cb : Callback) (t : Site) (x : Stop) (h : t.schema = .error x) : Sim cb (fun b => (b, .panic)) [t] :=
  fun before => ⟨[], by simp, .broken h⟩

theorem resolveAndCall_sim (resolve : Resolve S) (cb : Callback) (t : Site) (s : S)
    (h : t.schema = resolved resolve (some s)) :
    Sim cb (resolveAndCall resolve cb t.label t.inn t.name t.required (some s)) [t] := by
  unfold resolveAndCall
  cases hr : resolve (some s) with
  | error x =>
    rw [resolved, hr] at h
    exact panic_sim cb t x h
  | ok r =>
    rw [resolved, hr] at h
    exact callCb_sim cb ⟨t.inn, t.name, some r, t.required⟩ t ⟨rfl, rfl, rfl, h⟩

theorem isTrue_eq (b : Option Bool) : isTrue b = b.getD false := by
  rcases b with _ | _ | _ <;> rfl

theorem walkParameter_sim (resolve : Resolve S) (cb : Callback) (p : Parameter S) :
    Sim cb (walkParameter resolve cb { param := some p }) [parameterSite resolve p] := by
  have hs : walkParamSchema p = p.schema.or ((p.content.get? "application/json").bind (·.schema)) := by
    unfold walkParamSchema
    cases p.schema with
    | some s => rfl
    | none => cases p.content.get? "application/json" <;> rfl
  unfold walkParameter
  simp only [isTrue_eq, hs]
  cases h : p.schema.or ((p.content.get? "application/json").bind (·.schema)) with
  | none =>
    exact callCb_sim cb ⟨p.inn, p.name, none, p.required.getD false⟩ (parameterSite resolve p)
      ⟨rfl, rfl, rfl, by simp only [parameterSite, h, resolved]⟩
  | some s => exact resolveAndCall_sim resolve cb (parameterSite resolve p) s (by simp only [parameterSite, h])

theorem formField_spec (extra : GoMap Any) (components : GoMap JS) (prop : JS) :
    FieldSchema extra components prop (formField extra components prop) := by
  cases prop with
  | zero => rfl
  | bool b => rfl
  | obj flat not allOf oneOf anyOf items itemsArr props addl others =>
    unfold formField FieldSchema
    by_cases h : extra.length + components.length > 0
    · simp only [if_pos h]
      refine ⟨trivial, fun ⟨e1, e2⟩ => ?_, fun _ => rfl⟩
      simp [e1, e2] at h
    · simp only [if_neg h]
      have h1 : extra = [] := List.length_eq_zero_iff.mp (by omega)
      have h2 : components = [] := List.length_eq_zero_iff.mp (by omega)
      exact ⟨h2.symm, fun _ => trivial, fun hn => absurd ⟨h1, h2⟩ hn⟩

theorem walkContent_sim (o : Order) (resolve : Resolve S) (cb : Callback) (cmt : String × MediaType S) :
    ∃ sites, RequestContentSites resolve cmt sites ∧ Sim cb (walkContent o resolve cb cmt) sites := by
  obtain ⟨ct, mt⟩ := cmt
  unfold walkContent
  cases hr : resolve mt.schema with
  | error x =>
    exact ⟨[⟨"", "", false, .error x, ""⟩], .unresolved hr rfl, panic_sim cb _ x rfl⟩
  | ok r =>
    simp only
    by_cases h1 : ct = "application/json"
    · subst h1
      simp only [if_true]
      exact ⟨_, .json hr, callCb_sim cb ⟨"body", "body", some r, false⟩
        ⟨"body", "body", false, .ok (some r), "request body schema: "⟩ ⟨rfl, rfl, rfl, rfl⟩⟩
    · simp only [if_neg h1]
      by_cases h2 : ct = "application/x-www-form-urlencoded"
      · subst h2
        simp only [if_true]
        obtain ⟨js, comps⟩ := r
        unfold provideFormData
        cases js with
        | zero => exact ⟨[⟨"", "", false, .error .panic, ""⟩], .formNotObject hr (by intros; nofun) rfl, panic_sim cb _ _ rfl⟩
        | bool b => exact ⟨[⟨"", "", false, .error .panic, ""⟩], .formNotObject hr (by intros; nofun) rfl, panic_sim cb _ _ rfl⟩
        | obj flat not allOf oneOf anyOf items itemsArr props addl others =>
          simp only
          let site : String × JS → Site := fun np => ⟨"formData", np.1, flat.required.contains np.1,
            .ok (some (formField flat.extra comps np.2)), "request body schema: "⟩
          have hp : ∀ xs : List (String × JS), Pointwise (FieldSite flat comps) xs (xs.map site) := by
            intro xs
            induction xs with
            | nil => exact .nil
            | cons x xs ih =>
              refine .cons ⟨rfl, rfl, ?_, rfl, _, rfl, formField_spec _ _ _⟩ ih
              simp [site]
          refine ⟨(inOrder o 2 props).map site, .form hr (inOrder_perm o 2 props) (hp _), ?_⟩
          have hflat : ∀ xs : List (String × JS), (xs.map fun x => [site x]).flatten = xs.map site := by
            intro xs; induction xs with
            | nil => rfl
            | cons x xs ih => simp only [List.map_cons, List.flatten_cons, ih, List.singleton_append]
          rw [← hflat]
          refine Sim.fold ?_
          generalize inOrder o 2 props = xs
          induction xs with
          | nil => exact .nil
          | cons x xs ih => exact .cons (callCb_sim cb _ (site x) ⟨rfl, rfl, rfl, rfl⟩) ih
      · simp only [if_neg h2]
        exact ⟨[], .other hr (by simp [h1, h2]), Sim.nil⟩

theorem provideRequest_sim (o : Order) (resolve : Resolve S) (cb : Callback) (op : Operation S) (ps : List (Parameter S))
    (hps : op.parameters = ps.map fun p => { param := some p }) :
    ∃ sites, RequestSites resolve ps op.requestBody sites ∧ Sim cb (provideRequest o resolve cb op) sites := by
  have hparams : Sim cb (provideParameters resolve cb op.parameters) (ps.map (parameterSite resolve)) := by
    have hflat : (ps.map fun x => [parameterSite resolve x]).flatten = ps.map (parameterSite resolve) := by
      induction ps generalizing op with
      | nil => rfl
      | cons x xs ih => simp only [List.map_cons, List.flatten_cons, ih { op with parameters := _ } rfl, List.singleton_append]
    unfold provideParameters
    rw [hps, ← hflat]
    refine Sim.fold ?_
    clear hflat hps
    induction ps with
    | nil => exact .nil
    | cons x xs ih => exact .cons (walkParameter_sim resolve cb x) ih
  have hbody : ∃ order bodySites,
      order.Perm (((op.requestBody.bind (·.body)).map (·.content)).getD []) ∧
      Pointwise (RequestContentSites resolve) order bodySites ∧
      Sim cb (fun before => match op.requestBody with
        | some { body := some b, .. } => foldActs (walkContent o resolve cb) (inOrder o 1 b.content) before
        | _ => (before, .ok)) bodySites.flatten := by
    rcases op.requestBody with _ | ⟨_ | b, ref⟩
    · exact ⟨[], [], .refl _, .nil, Sim.nil⟩
    · exact ⟨[], [], .refl _, .nil, Sim.nil⟩
    · obtain ⟨ls, hls⟩ := pointwise_of_forall (inOrder o 1 b.content) fun x _ => walkContent_sim o resolve cb x
      exact ⟨_, ls, inOrder_perm o 1 b.content, pointwise_left (fun _ _ h => h.1) hls,
        Sim.fold (pointwise_left (fun _ _ h => h.2) hls)⟩
  obtain ⟨order, bs, h1, h2, h3⟩ := hbody
  refine ⟨_, ⟨order, bs, h1, h2, rfl⟩, Sim.seq hparams h3 ?_ ?_⟩
  · intro s s' h
    simp only [provideRequest, h]
    rfl
  · intro s s' out h ho
    simp only [provideRequest, h]
    cases out with
    | ok => exact absurd rfl ho
    | err => rfl
    | panic => rfl

theorem walkHeader_sim (resolve : Resolve S) (cb : Callback) (nh : String × HeaderOrRef S) :
    ∃ sites, HeaderSites resolve nh sites ∧ Sim cb (walkHeader resolve cb nh) sites := by
  obtain ⟨n, h⟩ := nh
  unfold walkHeader
  cases hh : h.header with
  | none => exact ⟨[⟨"", "", false, .error .panic, ""⟩], .reference hh rfl, panic_sim cb _ _ rfl⟩
  | some hd =>
    simp only [isTrue_eq]
    cases hs : hd.schema with
    | none => exact ⟨[], .none hh hs, Sim.nil⟩
    | some s => exact ⟨_, .some hh hs (headerName_key n), resolveAndCall_sim resolve cb ⟨_, _, _, _, _⟩ s rfl⟩

theorem walkRespContent_sim (resolve : Resolve S) (cb : Callback) (cmt : String × MediaType S) :
    ∃ sites, ResponseContentSites resolve cmt sites ∧ Sim cb (walkRespContent resolve cb cmt) sites := by
  obtain ⟨ct, mt⟩ := cmt
  unfold walkRespContent
  cases hs : mt.schema with
  | none => exact ⟨[], .none hs, Sim.nil⟩
  | some s => exact ⟨_, .some hs, resolveAndCall_sim resolve cb ⟨_, _, _, _, _⟩ s rfl⟩

theorem provideResponse_sim (o : Order) (resolve : Resolve S) (cb : Callback) (op : Operation S) (k : String)
    (resp : Response S) (ref : Option String) (hop : op.responses.codes = [(k, { response := some resp, ref })]) :
    ∃ sites, ResponseSites resolve resp sites ∧ Sim cb (provideResponse o resolve cb op) sites := by
  have hl : ((inOrder o 0 op.responses.codes).getLast?).bind (·.2.response) = some resp := by
    have hp := inOrder_perm o 0 op.responses.codes
    rw [hop] at hp ⊢
    rw [List.perm_singleton.mp hp]
    rfl
  obtain ⟨hs, hhs⟩ := pointwise_of_forall (inOrder o 1 resp.headers) fun x _ => walkHeader_sim resolve cb x
  obtain ⟨cs, hcs⟩ := pointwise_of_forall (inOrder o 2 resp.content) fun x _ => walkRespContent_sim resolve cb x
  refine ⟨_, ⟨_, hs, _, cs, inOrder_perm o 1 _, pointwise_left (fun _ _ h => h.1) hhs, inOrder_perm o 2 _,
    pointwise_left (fun _ _ h => h.1) hcs, rfl⟩,
    Sim.seq (Sim.fold (pointwise_left (fun _ _ h => h.2) hhs)) (Sim.fold (pointwise_left (fun _ _ h => h.2) hcs)) ?_ ?_⟩
  · intro s s' h
    simp only [provideResponse, hl, h]
  · intro s s' out h ho
    simp only [provideResponse, hl, h]
    cases out with
    | ok => exact absurd rfl ho
    | err => rfl
    | panic => rfl

theorem provideResponse_panic (o : Order) (resolve : Resolve S) (cb : Callback) (op : Operation S)
    (hop : ∀ e ∈ op.responses.codes, e.2.response = none) (before : List WalkCall) :
    provideResponse o resolve cb op before = (before, .panic) := by
  have hl : ((inOrder o 0 op.responses.codes).getLast?).bind (·.2.response) = none := by
    cases h : (inOrder o 0 op.responses.codes).getLast? with
    | none => rfl
    | some e => exact hop e ((inOrder_perm o 0 _).mem_iff.mp (List.mem_of_getLast? h))
  simp only [provideResponse, hl]

end Verif
