import Verif.Props.Doc30
import Verif.Props.Doc31

/-!
# Exactly what failing and repeated calls do to a document (C08-C11)

In OpenAPI 3.1 the setup functions edit a stored operation in place, and in both versions the check for
an existing operation looks at the path as written. These theorems say what follows from that, with no
restriction on the document, the call or the history.
-/

namespace Verif
open ParamSpec DocSpec PathSpec
variable {S : Type}

theorem runsTo_of_runSetups (fs : List (Setup S)) (op : Operation S) :
    RunsTo fs op (runSetups fs op).1 (runSetups fs op).2 := by
  induction fs generalizing op with
  | nil => exact .nil
  | cons f fs ih =>
    cases hf : f op with
    | mk o err =>
      cases err with
      | some e =>
        simp only [runSetups, hf]
        exact ⟨[], f, fs, op, rfl, .nil, hf⟩
      | none =>
        simp only [runSetups, hf]
        have := ih o
        cases hr : (runSetups fs o).2 with
        | none => rw [hr] at this; exact .cons hf this
        | some e =>
          rw [hr] at this
          obtain ⟨pre, g, post, op1, h1, h2, h3⟩ := this
          exact ⟨f :: pre, g, post, op1, by rw [h1]; rfl, .cons hf h2, h3⟩

theorem text_eq_clean_iff (ps : List Piece) :
    cleanAll ps = textAll ps ↔ ∀ n pat, Piece.ph n (some pat) ∉ ps := by
  have len : ∀ ps : List Piece, (cleanAll ps).length ≤ (textAll ps).length ∧
      ((∃ n pat, Piece.ph n (some pat) ∈ ps) → (cleanAll ps).length < (textAll ps).length) := by
    intro ps
    induction ps with
    | nil => exact ⟨Nat.le_refl _, by rintro ⟨n, pat, h⟩; cases h⟩
    | cons q ps ih =>
      have e1 : cleanAll (q :: ps) = q.clean ++ cleanAll ps := rfl
      have e2 : textAll (q :: ps) = q.text ++ textAll ps := rfl
      rw [e1, e2, List.length_append, List.length_append]
      have hq : q.clean.length ≤ q.text.length := by
        rcases q with c | ⟨n, _ | r⟩ <;> simp [Piece.clean, Piece.text]
      refine ⟨by omega, ?_⟩
      rintro ⟨n, pat, h⟩
      rcases List.mem_cons.mp h with rfl | h
      · simp only [Piece.clean, Piece.text, List.length_cons, List.length_append, List.length_nil]
        omega
      · have := ih.2 ⟨n, pat, h⟩
        omega
  constructor
  · intro h n pat hm
    have := (len ps).2 ⟨n, pat, hm⟩
    rw [h] at this
    exact Nat.lt_irrefl _ this
  · intro h
    induction ps with
    | nil => rfl
    | cons q ps ih =>
      have e1 : cleanAll (q :: ps) = q.clean ++ cleanAll ps := rfl
      have e2 : textAll (q :: ps) = q.text ++ textAll ps := rfl
      rw [e1, e2, ih (fun n pat hm => h n pat (List.mem_cons_of_mem _ hm))]
      rcases q with c | ⟨n, _ | r⟩
      · rfl
      · rfl
      · exact absurd (List.mem_cons_self ..) (h n r)

/-- Sanitising changes a path exactly if it is written with a pattern. -/
theorem sanitize_changes_iff {m p : String} {r : Sanitized} (h : sanitizeMethodPath m p = .ok r) :
    r.path ≠ p ↔ HasPattern p := by
  obtain ⟨ps, hd, hu⟩ := C02_decomposition_exists_unique p
  rw [(C02_cleaned_path m p r ps h hd).1]
  have e : String.ofList (cleanAll ps) = p ↔ cleanAll ps = textAll ps := by
    rw [hd.1]
    constructor
    · intro h; rw [← h]; simp
    · intro h; rw [h]; simp
  rw [Ne, e, text_eq_clean_iff]
  constructor
  · intro hn
    apply Classical.byContradiction
    intro hc
    exact hn fun n pat hm => hc ⟨ps, n, pat, hd, hm⟩
  · rintro ⟨qs, n, pat, hq, hm⟩ hn
    rw [hu qs hq] at hm
    exact hn n pat hm

theorem consistent_no_pattern {path method : String} {op : Operation S} (h : Consistent path method op) :
    ¬ HasPattern path := by
  rintro ⟨qs, n, pat, hq, hm⟩
  obtain ⟨-, ps, hd, hn, -⟩ := h
  obtain ⟨_, -, hu⟩ := C02_decomposition_exists_unique path
  rw [hu qs hq, ← hu ps hd] at hm
  cases hn n _ hm

theorem sanitized_no_pattern {m p : String} {r : Sanitized} (h : sanitizeMethodPath m p = .ok r) :
    ¬ HasPattern r.path := by
  rw [← sanitize_changes_iff (C03_idempotent m p r h)]
  exact fun h => h rfl

/-! ## 3.0 -/

namespace V30

/-- C09 (3.0): in a document reached by any history, adding an operation where one is stored already
(under the path without its patterns) succeeds exactly if the path is written with a pattern and the new
operation is valid there; then the stored operation is replaced. In all other cases the document stays as
it is. -/
theorem C09_duplicate_exact (calls : List (Call S)) (m p : String) (op old : Operation S) (r : Sanitized)
    (hr : sanitizeMethodPath m p = .ok r)
    (hold : (calls.foldl Call.run {}).op? r.path r.method = some old) :
    let s := calls.foldl Call.run ({} : Spec S)
    let res := s.addOperation m p op
    (res.2 = none ↔ HasPattern p ∧ validatePathParams op.parameters (pathParamsMap r.params) = none) ∧
    (res.2 ≠ none → res.1 = s) ∧
    (res.2 = none → ∃ stored, Completed op stored ∧ ∀ path method, res.1.op? path method =
      if path = r.path ∧ method = r.method then some stored else s.op? path method) := by
  intro s res
  refine ⟨?_, ?_, ?_⟩
  · rw [C07_add_succeeds_iff, ← (sanitize_method hr).1]
    simp only [hr, Except.ok.injEq, exists_eq_left']
    rw [← sanitize_changes_iff hr]
    refine and_congr_left fun _ => ?_
    constructor
    · intro h e
      rw [e, h] at hold
      cases hold
    · intro h
      cases ho : s.op? p r.method with
      | none => rfl
      | some o =>
        exact absurd ((sanitize_changes_iff hr).mp h)
          (consistent_no_pattern (C10_consistent_documents calls p r.method o ho))
  · intro h
    cases hres : s.addOperation m p op with
    | mk s' err =>
      have hre : res = (s', err) := hres
      rw [hre] at h ⊢
      cases err with
      | none => exact absurd rfl h
      | some e => exact C08_add_failure s s' m p e op hres
  · intro h
    obtain ⟨r', stored, h1, h2, h3, -⟩ := C07_add_success s res.1 m p op (Prod.ext rfl h)
    rw [hr] at h1
    cases h1
    exact ⟨stored, h2, h3⟩

/-- A history, and a second operation under two spellings of the path. -/
example :
    let par : List (ParamOrRef Unit) := [{ param := some { name := "id", inn := "path" } }]
    let calls : List (Call Unit) := [.add "GET" "/u/{id}" { parameters := par }]
    ((calls.foldl Call.run {}).op? "/u/{id}" "get").isSome = true ∧
    ((calls.foldl Call.run {}).addOperation "get" "/u/{id}" { parameters := par }).2 ≠ none ∧
    ((calls.foldl Call.run {}).addOperation "get" "/u/{id:[0-9]}" { parameters := par }).2 = none := by
  decide +kernel

end V30

/-! ## 3.1 -/

namespace V31

theorem editInPlace_frame (s : Spec S) (r : Sanitized) (op : Operation S) (hm : r.method ∈ methods) :
    (∀ path, ∀ method ∈ methods, (s.editInPlace r.path r.method op).op? path method =
      if path = r.path ∧ method = r.method then some op else s.op? path method) ∧
    s.editInPlace r.path r.method op = { s with paths := (s.editInPlace r.path r.method op).paths } ∧
    (∀ path, ((s.editInPlace r.path r.method op).pathItem path).summary = (s.pathItem path).summary ∧
      ((s.editInPlace r.path r.method op).pathItem path).parameters = (s.pathItem path).parameters) := by
  obtain ⟨pi, hpi, hsum, hpar, -⟩ := setOperation_known hm (s.pathItem r.path) op
  simp only [Spec.editInPlace, hpi]
  refine ⟨fun path method hmm => op?_set hm hpi path method hmm, trivial, fun path => ?_⟩
  rw [pathItem_set]
  by_cases hq : path = r.path
  · simp [hq, hsum, hpar]
  · simp [hq]

/-- C11 (3.1): what a failing `SetupOperation` leaves, exactly. With an unknown method the document is
unchanged. Otherwise the setup functions ran on the stored operation, or on an empty one, until the first
that failed; if all succeeded, the result is not valid for the path. An operation that was stored is
replaced by what they left; if none was stored, none is stored now. Every other operation and everything
else in the document stays. -/
theorem C11_setup_failure (s s' : Spec S) (m p e : String) (fs : List (Setup S))
    (h : s.setupOperation m p fs = (s', some e)) :
    ((∀ n ∈ methods, ¬ Spells m.toList n.toList) ∧ s' = s) ∨
    ∃ r op err, sanitizeMethodPath m p = .ok r ∧
      RunsTo fs ((s.op? r.path r.method).getD {}) op err ∧
      (∀ e', err = some e' → e = e') ∧
      (err = none → validatePathParams op.parameters (pathParamsMap r.params) = some e) ∧
      (∀ path, ∀ method ∈ methods, s'.op? path method =
        if path = r.path ∧ method = r.method ∧ s.op? path method ≠ none then some op
        else s.op? path method) ∧
      s' = { s with paths := s'.paths } ∧
      (∀ path, (s'.pathItem path).summary = (s.pathItem path).summary ∧
        (s'.pathItem path).parameters = (s.pathItem path).parameters) := by
  cases hs : sanitizeMethodPath m p with
  | error e' =>
    left
    simp only [Spec.setupOperation, hs] at h
    cases h
    refine ⟨fun n hn hsp => ?_, rfl⟩
    obtain ⟨r, hr, -⟩ := (C01_methods m p).1 n hn hsp
    rw [hr] at hs
    cases hs
  | ok r =>
    right
    have hm := (sanitize_method hs).2
    have hop : (s.pathsEns.pathItem r.path).operation r.method = .ok (s.op? r.path r.method) := by
      rw [pathsEns_pathItem]; exact op?_known hm
    have hrun := runsTo_of_runSetups fs ((s.op? r.path r.method).getD {})
    cases hr : runSetups fs ((s.op? r.path r.method).getD {}) with
    | mk op err =>
      rw [hr] at hrun
      refine ⟨r, op, err, rfl, hrun, ?_⟩
      -- the document that a failing call leaves
      have hdoc : ∀ t : Spec S, t = (if (s.op? r.path r.method).isSome then
            s.pathsEns.editInPlace r.path r.method op else s.pathsEns) →
          (∀ path, ∀ method ∈ methods, t.op? path method =
            if path = r.path ∧ method = r.method ∧ s.op? path method ≠ none then some op
            else s.op? path method) ∧
          t = { s with paths := t.paths } ∧
          (∀ path, (t.pathItem path).summary = (s.pathItem path).summary ∧
            (t.pathItem path).parameters = (s.pathItem path).parameters) := by
        rintro t rfl
        cases ho : s.op? r.path r.method with
        | none =>
          simp only [Option.isSome_none, Bool.false_eq_true, if_false, pathsEns_op?, pathsEns_pathItem]
          refine ⟨fun path method _ => ?_, rfl, fun _ => ⟨trivial, trivial⟩⟩
          split
          · rename_i hc; rw [hc.1, hc.2.1, ho] at hc; exact absurd rfl hc.2.2
          · rfl
        | some old =>
          simp only [Option.isSome_some, if_true]
          obtain ⟨h1, h2, h3⟩ := editInPlace_frame s.pathsEns r op hm
          refine ⟨fun path method hmm => ?_, by rw [h2]; rfl, fun path => ?_⟩
          · rw [h1 path method hmm, pathsEns_op?]
            by_cases hc : path = r.path ∧ method = r.method
            · simp [hc.1, hc.2, ho]
            · rw [if_neg hc, if_neg (fun h => hc ⟨h.1, h.2.1⟩)]
          · rw [← pathsEns_pathItem s path]; exact h3 path
      simp only [Spec.setupOperation, hs, hop, hr] at h
      cases err with
      | some e' =>
        simp only [Prod.mk.injEq, Option.some.injEq] at h
        refine ⟨fun e'' he => ?_, (nomatch ·), hdoc s' h.1.symm⟩
        cases he
        exact h.2.symm
      | none =>
        simp only at h
        cases hv : validatePathParams op.parameters (pathParamsMap r.params) with
        | some e' =>
          simp only [hv, Prod.mk.injEq, Option.some.injEq] at h
          exact ⟨(fun _ h => nomatch h), fun _ => by rw [h.2], hdoc s' h.1.symm⟩
        | none =>
          simp only [hv] at h
          obtain ⟨pi', hpi, -⟩ := setOperation_known hm (s.pathItem r.path) op
          rw [pathsEns_pathItem, hpi] at h
          cases h

/-- C08 (3.1): what a failing `AddOperation` leaves, exactly. If the path is written with a pattern, an
operation is stored under the path without it and none under the path as written, the stored operation is
replaced by the rejected one and everything else stays. In all other cases nothing changes (nil paths
become an empty map). -/
theorem C08_add_failure_exact (s s' : Spec S) (m p e : String) (op : Operation S)
    (h : s.addOperation m p op = (s', some e)) :
    (∀ r, sanitizeMethodPath m p = .ok r → HasPattern p → s.op? r.path r.method ≠ none →
      s.op? p r.method = none →
      ∃ stored, Completed op stored ∧
        (∀ path, ∀ method ∈ methods, s'.op? path method =
          if path = r.path ∧ method = r.method then some stored else s.op? path method) ∧
        s' = { s with paths := s'.paths } ∧
        (∀ path, (s'.pathItem path).summary = (s.pathItem path).summary ∧
          (s'.pathItem path).parameters = (s.pathItem path).parameters)) ∧
    ((∀ r, sanitizeMethodPath m p = .ok r →
        ¬ (HasPattern p ∧ s.op? r.path r.method ≠ none ∧ s.op? p r.method = none)) →
      s' = { s with paths := some (s.paths.getD []) }) := by
  rcases addOperation_cases s m p op with ⟨e', e'', h1, he⟩ | ⟨r', old, e', h1, h2, he⟩ | ⟨r', h1, h2, he⟩
  · rw [he] at h
    cases h
    exact ⟨fun r hr => (by rw [hr] at h1; cases h1), fun _ => rfl⟩
  · rw [he] at h
    cases h
    refine ⟨fun r hr _ _ hn => ?_, fun _ => rfl⟩
    rw [hr] at h1
    cases h1
    rw [hn] at h2
    cases h2
  · constructor
    · intro r hr hp hst hn
      rw [he] at h
      rcases C11_setup_failure _ _ _ _ _ _ h with ⟨hm, -⟩ | ⟨r2, op', err, g1, h3, h4, h5, h6, h7, h8⟩
      · exact absurd ((C01_methods m p).2.1 r hr).2 (hm _ ((C01_methods m p).2.1 r hr).1)
      · rw [hr] at g1
        cases g1
        have hop' : op' = ensureSomeResponse op := by
          cases err with
          | none =>
            have := (runSetups_none_iff _ _ _).mpr h3
            rw [runSetups_const] at this
            cases this
            rfl
          | some e' =>
            obtain ⟨pre, f, post, op1, g1, g2, g3⟩ := h3
            cases pre with
            | nil => cases g1; cases g3
            | cons x xs => simp at g1
        subst hop'
        refine ⟨_, ensureSomeResponse_completed op, fun path method hm => ?_, by rw [h7]; rfl, fun path => ?_⟩
        · rw [h6 path method hm, pathsEns_op?]
          by_cases hc : path = r.path ∧ method = r.method
          · rw [if_pos hc, if_pos ⟨hc.1, hc.2, by rw [hc.1, hc.2]; exact hst⟩]
          · rw [if_neg hc, if_neg (fun h => hc ⟨h.1, h.2.1⟩)]
        · rw [← pathsEns_pathItem s path]; exact h8 path
    · intro hno
      refine C08_add_failure_plain s s' m p e op (fun r hr => ?_) h
      have hrr := h1.symm.trans hr
      injection hrr with hrr
      rw [hrr] at h2
      by_cases hp : r.path = p
      · exact .inl hp
      · right
        apply Classical.byContradiction
        intro hst
        exact hno r hr ⟨(sanitize_changes_iff hr).mp hp, hst, h2⟩

/-- Both cases of the theorem occur. -/
example :
    let par : List (ParamOrRef Unit) := [{ param := some { name := "id", inn := "path" } }]
    let s : Spec Unit := { paths := some [("/u/{id}", { get := some { parameters := par } })] }
    HasPattern "/u/{id:[0-9]+}" ∧ s.op? "/u/{id}" "get" ≠ none ∧ s.op? "/u/{id:[0-9]+}" "get" = none ∧
    (s.addOperation "GET" "/u/{id:[0-9]+}" {}).2 = some "undefined path parameter: id" ∧
    (s.addOperation "GET" "/v/{id}" {}).2 = some "undefined path parameter: id" := by
  refine ⟨(sanitize_changes_iff (m := "get") (r := ⟨"get", "/u/{id}", ["id"]⟩) (by decide +kernel)).mp
    (by decide +kernel), ?_⟩
  decide +kernel

/-! ### Histories -/

/-- A history of calls on a document. -/
inductive Call (S : Type) where
  | add (method path : String) (op : Operation S)
  | setup (method path : String) (fs : List (Setup S))
  | webhook (method name : String) (op : Operation S)
  | basicAuth (name description : String)
  | apiKey (name fieldName fieldIn description : String)
  | bearer (name format description : String)

/-- The document after one call, and the error. -/
def Call.run (s : Spec S) : Call S → Spec S × Option String
  | .add m p op => s.addOperation m p op
  | .setup m p fs => s.setupOperation m p fs
  | .webhook m n op => s.addWebhook m n op
  | .basicAuth n d => (s.setHTTPBasicSecurity n d, none)
  | .apiKey n f i d => (s.setAPIKeySecurity n f i d, none)
  | .bearer n f d => (s.setHTTPBearerTokenSecurity n f d, none)

/-- The document after a history that starts with an empty document and ignores errors. -/
def after (calls : List (Call S)) : Spec S := calls.foldl (fun s c => (c.run s).1) {}

/-- The method and path a call was given, for the two calls that store operations. -/
def Call.args : Call S → Option (String × String)
  | .add m p _ => some (m, p)
  | .setup m p _ => some (m, p)
  | _ => none

/-- The call is about this operation: its path without patterns and its method in lower case. -/
def Call.Addresses (c : Call S) (path method : String) : Prop :=
  ∃ m p r, c.args = some (m, p) ∧ sanitizeMethodPath m p = .ok r ∧ r.path = path ∧ r.method = method

theorem ofPaths {s t : Spec S} (h : t.paths = s.paths) (p m : String) : t.op? p m = s.op? p m := by
  simp only [Spec.op?, Spec.pathItem, h]

theorem setup_step (s : Spec S) (m p : String) (fs : List (Setup S)) (path method : String)
    (hm : method ∈ methods) :
    ((∀ r, sanitizeMethodPath m p = .ok r → ¬ (r.path = path ∧ r.method = method)) →
      (s.setupOperation m p fs).1.op? path method = s.op? path method) ∧
    (∀ r, sanitizeMethodPath m p = .ok r → r.path = path → r.method = method →
      ((s.setupOperation m p fs).2 = none →
        ∃ op, (s.setupOperation m p fs).1.op? path method = some op ∧ Consistent path method op) ∧
      ((s.setupOperation m p fs).2 ≠ none →
        ((s.setupOperation m p fs).1.op? path method = none ↔ s.op? path method = none))) := by
  cases hres : s.setupOperation m p fs with
  | mk s' err =>
    cases err with
    | none =>
      rcases setupOperation_cases s m p fs with ⟨e, -, he⟩ | ⟨r, e, -, -, he⟩ | ⟨r, o, e, -, -, he⟩ |
        ⟨r, op, s2, h1, h2, h3, h4, h5, h6, he⟩
      · rw [he] at hres; cases hres
      · rw [he] at hres; cases hres
      · rw [he] at hres; cases hres
      · rw [he] at hres
        cases hres
        refine ⟨fun hno => ?_, fun r' hr' hp hme => ⟨fun _ => ⟨op, ?_⟩, fun h => absurd rfl h⟩⟩
        · rw [h4 path method hm, if_neg]
          rintro ⟨rfl, rfl⟩
          exact hno r h1 ⟨rfl, rfl⟩
        · rw [h1] at hr'
          cases hr'
          subst hp hme
          refine ⟨?_, h3⟩
          rw [h4 _ _ hm]
          simp
    | some e =>
      rcases C11_setup_failure s s' m p e fs hres with ⟨hu, rfl⟩ | ⟨r, op, err, h1, -, -, -, h6, -⟩
      · refine ⟨fun _ => rfl, fun r hr => ?_⟩
        exact absurd ((C01_methods m p).2.1 r hr).2 (hu _ ((C01_methods m p).2.1 r hr).1)
      · refine ⟨fun hno => ?_, fun r' hr' hp hme => ⟨(nomatch ·), fun _ => ?_⟩⟩
        · show s'.op? path method = _
          rw [h6 path method hm, if_neg]
          rintro ⟨rfl, rfl, -⟩
          exact hno r h1 ⟨rfl, rfl⟩
        · rw [h1] at hr'
          cases hr'
          subst hp hme
          show s'.op? _ _ = none ↔ _
          rw [h6 _ _ hm]
          simp only [true_and]
          split
          · rename_i hc; simp [hc]
          · rfl

theorem call_step (s : Spec S) (c : Call S) (path method : String) (hm : method ∈ methods) :
    (¬ c.Addresses path method → (c.run s).1.op? path method = s.op? path method) ∧
    (c.Addresses path method →
      ((c.run s).2 = none →
        ∃ op, (c.run s).1.op? path method = some op ∧ Consistent path method op) ∧
      ((c.run s).2 ≠ none → ((c.run s).1.op? path method = none ↔ s.op? path method = none))) := by
  cases c with
  | add m p op =>
    have haddr : ∀ r, sanitizeMethodPath m p = .ok r → r.path = path → r.method = method →
        (Call.add m p op).Addresses path method := fun r h1 h2 h3 => ⟨m, p, r, rfl, h1, h2, h3⟩
    simp only [Call.run]
    rcases addOperation_cases s m p op with ⟨e', e'', h1, he⟩ | ⟨r', old, e', h1, h2, he⟩ | ⟨r', h1, h2, he⟩
    · rw [he]
      refine ⟨fun _ => pathsEns_op? _ _ _, fun _ => ⟨(nomatch ·), fun _ => ?_⟩⟩
      rw [pathsEns_op?]
    · rw [he]
      refine ⟨fun _ => pathsEns_op? _ _ _, fun _ => ⟨(nomatch ·), fun _ => ?_⟩⟩
      rw [pathsEns_op?]
    · rw [he, ← pathsEns_op? s]
      obtain ⟨k1, k2⟩ := setup_step s.pathsEns m p [fun _ => (ensureSomeResponse op, none)] path method hm
      refine ⟨fun hno => k1 fun r hr hc => hno (haddr r hr hc.1 hc.2), ?_⟩
      rintro ⟨m', p', r, ha, hr, hp, hme⟩
      cases ha
      exact k2 r hr hp hme
  | setup m p fs =>
    obtain ⟨k1, k2⟩ := setup_step s m p fs path method hm
    refine ⟨fun hno => k1 fun r hr hc => hno ⟨m, p, r, rfl, hr, hc.1, hc.2⟩, ?_⟩
    rintro ⟨m', p', r, ha, hr, hp, hme⟩
    cases ha
    exact k2 r hr hp hme
  | webhook m n op =>
    refine ⟨fun _ => ofPaths (addWebhook_paths s m n op) _ _, ?_⟩
    rintro ⟨m', p', r, ha, -⟩
    cases ha
  | basicAuth n d => exact ⟨fun _ => rfl, by rintro ⟨m', p', r, ha, -⟩; cases ha⟩
  | apiKey n f i d => exact ⟨fun _ => rfl, by rintro ⟨m', p', r, ha, -⟩; cases ha⟩
  | bearer n f d => exact ⟨fun _ => rfl, by rintro ⟨m', p', r, ha, -⟩; cases ha⟩

theorem after_snoc (calls : List (Call S)) (c : Call S) : after (calls ++ [c]) = (c.run (after calls)).1 := by
  simp [after]

theorem snoc_cases {α : Type} (l : List α) : l = [] ∨ ∃ l' a, l = l' ++ [a] := by
  induction l with
  | nil => exact .inl rfl
  | cons x xs ih =>
    right
    rcases ih with rfl | ⟨l', a, rfl⟩
    · exact ⟨[], x, rfl⟩
    · exact ⟨x :: l', a, rfl⟩

theorem snoc_induction {α : Type} {P : List α → Prop} (nil : P []) (snoc : ∀ l a, P l → P (l ++ [a])) :
    ∀ l, P l := by
  have : ∀ n (l : List α), l.length = n → P l := by
    intro n
    induction n with
    | zero => intro l h; rw [List.length_eq_zero_iff.mp h]; exact nil
    | succ n ih =>
      intro l h
      rcases snoc_cases l with rfl | ⟨l', a, rfl⟩
      · exact nil
      · exact snoc l' a (ih l' (by simpa using h))
  exact fun l => this _ l rfl

theorem empty_op? {method : String} (hm : method ∈ methods) (path : String) :
    ({} : Spec S).op? path method = none := by
  cases ho : ({} : Spec S).op? path method with
  | none => rfl
  | some op =>
    have := op?_some ho
    simp only [PathSpec.methods, List.mem_cons, List.not_mem_nil, or_false] at hm
    obtain ⟨u1, u2, u3, u4, u5, u6, u7, u8⟩ := upper_methods
    rcases hm with rfl | rfl | rfl | rfl | rfl | rfl | rfl | rfl <;>
      simp [Spec.pathItem, PathItem.operation, u1, u2, u3, u4, u5, u6, u7, u8] at this

/-- C10 (3.1): after any history of calls, failed ones included, an operation is stored for a path and
method exactly if some call about it succeeded. -/
theorem C10_stored_iff (calls : List (Call S)) (path method : String) (hm : method ∈ methods) :
    (after calls).op? path method ≠ none ↔
      ∃ pre c post, calls = pre ++ c :: post ∧ c.Addresses path method ∧ (c.run (after pre)).2 = none := by
  induction calls using snoc_induction with
  | nil =>
    simp only [after, List.foldl_nil, empty_op? hm, ne_eq, not_true_eq_false, false_iff]
    rintro ⟨pre, c, post, h, -⟩
    simp at h
  | snoc calls c ih =>
    rw [after_snoc]
    obtain ⟨k1, k2⟩ := call_step (after calls) c path method hm
    have lift : (∃ pre c' post, calls = pre ++ c' :: post ∧ c'.Addresses path method ∧
        (c'.run (after pre)).2 = none) →
        ∃ pre c' post, calls ++ [c] = pre ++ c' :: post ∧ c'.Addresses path method ∧
        (c'.run (after pre)).2 = none := by
      rintro ⟨pre, c', post, rfl, h⟩
      exact ⟨pre, c', post ++ [c], by simp, h⟩
    have lower : ((∃ pre c' post, calls ++ [c] = pre ++ c' :: post ∧ c'.Addresses path method ∧
        (c'.run (after pre)).2 = none)) →
        (c.Addresses path method ∧ (c.run (after calls)).2 = none) ∨
        ∃ pre c' post, calls = pre ++ c' :: post ∧ c'.Addresses path method ∧
        (c'.run (after pre)).2 = none := by
      rintro ⟨pre, c', post, h, h'⟩
      rcases snoc_cases post with rfl | ⟨post', a, rfl⟩
      · have := List.append_inj' h rfl
        obtain ⟨rfl, e⟩ := this
        cases e
        exact .inl h'
      · right
        have : calls ++ [c] = (pre ++ c' :: post') ++ [a] := by rw [h]; simp
        obtain ⟨rfl, e⟩ := List.append_inj' this rfl
        exact ⟨pre, c', post', rfl, h'⟩
    by_cases ha : c.Addresses path method
    · by_cases hs : (c.run (after calls)).2 = none
      · obtain ⟨op, ho, -⟩ := (k2 ha).1 hs
        simp only [ho, ne_eq, reduceCtorEq, not_false_eq_true, true_iff]
        exact ⟨calls, c, [], rfl, ha, hs⟩
      · rw [Ne, (k2 ha).2 hs]
        refine ih.trans ⟨lift, fun h => ?_⟩
        rcases lower h with ⟨-, h⟩ | h
        · exact absurd h hs
        · exact h
    · rw [k1 ha]
      refine ih.trans ⟨lift, fun h => ?_⟩
      rcases lower h with ⟨h, -⟩ | h
      · exact absurd h ha
      · exact h

/-- C10 (3.1): after any history of calls, failed ones included, a stored operation is consistent with
its path and method if the last call about it succeeded. (If that call failed it need not be:
`C11_setup_not_atomic`.) -/
theorem C10_consistent_documents (calls : List (Call S)) (path method : String) (hm : method ∈ methods)
    (op : Operation S) (h : (after calls).op? path method = some op)
    (hlast : ∀ pre c post, calls = pre ++ c :: post → c.Addresses path method →
      (∀ d ∈ post, ¬ d.Addresses path method) → (c.run (after pre)).2 = none) :
    Consistent path method op := by
  induction calls using snoc_induction with
  | nil =>
    rw [show after ([] : List (Call S)) = {} from rfl, empty_op? hm] at h
    cases h
  | snoc calls c ih =>
    rw [after_snoc] at h
    obtain ⟨k1, k2⟩ := call_step (after calls) c path method hm
    by_cases ha : c.Addresses path method
    · obtain ⟨op', h1, h2⟩ := (k2 ha).1 (hlast calls c [] rfl ha (fun _ h => nomatch h))
      rw [h1] at h
      cases h
      exact h2
    · rw [k1 ha] at h
      refine ih h fun pre c' post he ha' hpost => hlast pre c' (post ++ [c]) (by rw [he]; simp) ha' ?_
      intro d hd
      rcases List.mem_append.mp hd with hd | hd
      · exact hpost d hd
      · rw [List.mem_singleton.mp hd]; exact ha

/-- C10 (3.1): after any history, no operation is stored under a path with a pattern. -/
theorem C10_no_patterns (calls : List (Call S)) (path method : String) (hm : method ∈ methods)
    (h : (after calls).op? path method ≠ none) : ¬ HasPattern path := by
  obtain ⟨pre, c, post, -, ⟨m, p, r, -, hr, rfl, -⟩, -⟩ := (C10_stored_iff calls path method hm).mp h
  exact sanitized_no_pattern hr

/-- A history with a success, a duplicate, a rejected operation, a failing edit that breaks the stored
operation and an edit that repairs it. -/
example :
    let par : List (ParamOrRef Unit) := [{ param := some { name := "id", inn := "path" } }]
    let calls : List (Call Unit) := [.add "GET" "/a/{id:[0-9]+}" { parameters := par },
       .add "GET" "/a/{id}" {}, .add "PUT" "/a/{id}" {},
       .setup "GET" "/a/{id}" [fun o => ({ o with parameters := [] }, none)],
       .setup "GET" "/a/{id}" [fun o => ({ o with parameters := par }, none)]]
    ((after calls).op? "/a/{id}" "get").isSome = true ∧ (after calls).op? "/a/{id}" "put" = none ∧
    ((after (calls.take 4)).op? "/a/{id}" "get").map (·.parameters.length) = some 0 ∧
    ((calls.getLast?.map fun c => (c.run (after (calls.take 4))).2) = some none) := by
  decide +kernel

/-- C09 (3.1): in a document reached by any history, adding an operation where one is stored already
(under the path without its patterns) succeeds exactly if the path is written with a pattern and the new
operation is valid there; then the stored operation is replaced. Without a pattern the document stays as
it is. -/
theorem C09_duplicate_exact (calls : List (Call S)) (m p : String) (op old : Operation S) (r : Sanitized)
    (hr : sanitizeMethodPath m p = .ok r)
    (hold : (after calls).op? r.path r.method = some old) :
    let s := after calls
    let res := s.addOperation m p op
    (res.2 = none ↔ HasPattern p ∧ validatePathParams op.parameters (pathParamsMap r.params) = none) ∧
    (¬ HasPattern p → res.1 = { s with paths := some (s.paths.getD []) }) ∧
    (HasPattern p → ∃ stored, Completed op stored ∧ ∀ path, ∀ method ∈ methods,
      res.1.op? path method =
        if path = r.path ∧ method = r.method then some stored else s.op? path method) := by
  intro s res
  have hm := (sanitize_method hr).2
  have hraw : HasPattern p → s.op? p r.method = none := by
    intro hp
    apply Classical.byContradiction
    intro ho
    exact C10_no_patterns calls p r.method hm ho hp
  have hiff : res.2 = none ↔
      HasPattern p ∧ validatePathParams op.parameters (pathParamsMap r.params) = none := by
    rw [C07_add_succeeds_iff]
    simp only [hr, Except.ok.injEq, exists_eq_left']
    refine and_congr_left fun _ => ⟨fun h => ?_, hraw⟩
    rw [← sanitize_changes_iff hr]
    intro e
    rw [e, h] at hold
    cases hold
  refine ⟨hiff, ?_, ?_⟩
  · intro hp
    have : r.path = p := Classical.byContradiction fun h => hp ((sanitize_changes_iff hr).mp h)
    obtain ⟨e, he⟩ := C09_no_overwrite_plain s m p op old r hr this hold
    show (s.addOperation m p op).1 = _
    rw [he]
  · intro hp
    cases hres : s.addOperation m p op with
    | mk s' err =>
      have hre : res = (s', err) := hres
      rw [hre]
      cases err with
      | none =>
        obtain ⟨r', stored, h1, h2, h3, -⟩ := C07_add_success s s' m p op hres
        rw [hr] at h1
        cases h1
        exact ⟨stored, h2, h3⟩
      | some e =>
        obtain ⟨stored, h1, h2, -⟩ := (C08_add_failure_exact s s' m p e op hres).1 r hr hp
          (by rw [hold]; exact (nomatch ·)) (hraw hp)
        exact ⟨stored, h1, h2⟩

end V31
end Verif
