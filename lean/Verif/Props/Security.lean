import Verif.Spec31
import Verif.Lemmas.Go

/-!
# Security schemes (C47), both versions
-/

namespace Verif

namespace V30
variable {S : Type}

/-- A call of one of the three security setters. -/
inductive SecCall where
  | basic (name description : String)
  | apiKey (name fieldName fieldIn description : String)
  | bearer (name format description : String)

/-- The security name a call is about. -/
def SecCall.name : SecCall → String
  | .basic n _ => n
  | .apiKey n _ _ _ => n
  | .bearer n _ _ => n

/-- What the caller asked for. -/
def SecCall.wanted : SecCall → SecScheme
  | .basic _ d => .basic d
  | .apiKey _ f i d => .apiKey f i d
  | .bearer _ "" d => .bearer none d
  | .bearer _ f d => .bearer (some f) d

/-- Perform a call. -/
def SecCall.run (s : Spec S) : SecCall → Spec S
  | .basic n d => s.setHTTPBasicSecurity n d
  | .apiKey n f i d => s.setAPIKeySecurity n f i d
  | .bearer n f d => s.setHTTPBearerTokenSecurity n f d

theorem secCall_run (s : Spec S) (c : SecCall) :
    c.run s = { s with security := s.security.set c.name c.wanted } := by
  cases c with
  | basic n d => rfl
  | apiKey n f i d => rfl
  | bearer n f d =>
    simp only [SecCall.run, Spec.setHTTPBearerTokenSecurity, SecCall.name]
    by_cases h : f = ""
    · subst h; rfl
    · have : SecCall.wanted (.bearer n f d) = .bearer (some f) d := by
        unfold SecCall.wanted
        split <;> simp_all
      simp [this, h]

theorem secCalls_fold (s : Spec S) (calls : List SecCall) :
    calls.foldl SecCall.run s =
      { s with security := calls.foldl (fun m c => m.set c.name c.wanted) s.security } := by
  induction calls generalizing s with
  | nil => rfl
  | cons c cs ih => rw [List.foldl_cons, ih, secCall_run]; rfl

theorem sec_untouched (m : GoMap SecScheme) (calls : List SecCall) (n : String)
    (h : ∀ c ∈ calls, c.name ≠ n) :
    (calls.foldl (fun m c => m.set c.name c.wanted) m).get? n = m.get? n := by
  induction calls generalizing m with
  | nil => rfl
  | cons c cs ih =>
    rw [List.foldl_cons, ih _ (fun c' h' => h c' (by simp [h'])), GoMap.get?_set,
      if_neg (fun e => h c (by simp) e.symm)]

/-- C47 (V30): after any sequence of security calls, a name that was set maps to what the last call with
that name asked for. -/
theorem C47_last_wins (s : Spec S) (before after : List SecCall) (c : SecCall)
    (h : ∀ c' ∈ after, c'.name ≠ c.name) :
    ((before ++ c :: after).foldl SecCall.run s).security.get? c.name = some c.wanted := by
  rw [secCalls_fold]
  simp only [List.foldl_append, List.foldl_cons]
  rw [sec_untouched _ after _ h, GoMap.get?_set_self]

/-- C47 (V30): a name that was not set maps to what it mapped to before, and nothing else in the document
changes. -/
theorem C47_frame (s : Spec S) (calls : List SecCall) :
    (∀ n, (∀ c ∈ calls, c.name ≠ n) →
      (calls.foldl SecCall.run s).security.get? n = s.security.get? n) ∧
    calls.foldl SecCall.run s = { s with security := (calls.foldl SecCall.run s).security } := by
  rw [secCalls_fold]
  exact ⟨fun n h => sec_untouched _ _ n h, rfl⟩

example : (([.basic "a" "x", .bearer "b" "" "y", .apiKey "a" "k" "header" "z"] : List SecCall).foldl
    SecCall.run ({} : Spec Unit)).security = [("a", .apiKey "k" "header" "z"), ("b", .bearer none "y")] := by
  decide +kernel

end V30

namespace V31
variable {S : Type}

/-- A call of one of the three security setters. -/
inductive SecCall where
  | basic (name description : String)
  | apiKey (name fieldName fieldIn description : String)
  | bearer (name format description : String)

/-- The security name a call is about. -/
def SecCall.name : SecCall → String
  | .basic n _ => n
  | .apiKey n _ _ _ => n
  | .bearer n _ _ => n

/-- What the caller asked for. -/
def SecCall.wanted : SecCall → SecScheme
  | .basic _ d => .basic d
  | .apiKey _ f i d => .apiKey f i d
  | .bearer _ "" d => .bearer none d
  | .bearer _ f d => .bearer (some f) d

/-- Perform a call. -/
def SecCall.run (s : Spec S) : SecCall → Spec S
  | .basic n d => s.setHTTPBasicSecurity n d
  | .apiKey n f i d => s.setAPIKeySecurity n f i d
  | .bearer n f d => s.setHTTPBearerTokenSecurity n f d

theorem secCall_run (s : Spec S) (c : SecCall) :
    c.run s = { s with security := s.security.set c.name c.wanted } := by
  cases c with
  | basic n d => rfl
  | apiKey n f i d => rfl
  | bearer n f d =>
    simp only [SecCall.run, Spec.setHTTPBearerTokenSecurity, SecCall.name]
    by_cases h : f = ""
    · subst h; rfl
    · have : SecCall.wanted (.bearer n f d) = .bearer (some f) d := by
        unfold SecCall.wanted
        split <;> simp_all
      simp [this, h]

theorem secCalls_fold (s : Spec S) (calls : List SecCall) :
    calls.foldl SecCall.run s =
      { s with security := calls.foldl (fun m c => m.set c.name c.wanted) s.security } := by
  induction calls generalizing s with
  | nil => rfl
  | cons c cs ih => rw [List.foldl_cons, ih, secCall_run]; rfl

theorem sec_untouched (m : GoMap SecScheme) (calls : List SecCall) (n : String)
    (h : ∀ c ∈ calls, c.name ≠ n) :
    (calls.foldl (fun m c => m.set c.name c.wanted) m).get? n = m.get? n := by
  induction calls generalizing m with
  | nil => rfl
  | cons c cs ih =>
    rw [List.foldl_cons, ih _ (fun c' h' => h c' (by simp [h'])), GoMap.get?_set,
      if_neg (fun e => h c (by simp) e.symm)]

/-- C47 (V31): after any sequence of security calls, a name that was set maps to what the last call with
that name asked for. -/
theorem C47_last_wins (s : Spec S) (before after : List SecCall) (c : SecCall)
    (h : ∀ c' ∈ after, c'.name ≠ c.name) :
    ((before ++ c :: after).foldl SecCall.run s).security.get? c.name = some c.wanted := by
  rw [secCalls_fold]
  simp only [List.foldl_append, List.foldl_cons]
  rw [sec_untouched _ after _ h, GoMap.get?_set_self]

/-- C47 (V31): a name that was not set maps to what it mapped to before, and nothing else in the document
changes. -/
theorem C47_frame (s : Spec S) (calls : List SecCall) :
    (∀ n, (∀ c ∈ calls, c.name ≠ n) →
      (calls.foldl SecCall.run s).security.get? n = s.security.get? n) ∧
    calls.foldl SecCall.run s = { s with security := (calls.foldl SecCall.run s).security } := by
  rw [secCalls_fold]
  exact ⟨fun n h => sec_untouched _ _ n h, rfl⟩

example : (([.basic "a" "x", .bearer "b" "" "y", .apiKey "a" "k" "header" "z"] : List SecCall).foldl
    SecCall.run ({} : Spec Unit)).security = [("a", .apiKey "k" "header" "z"), ("b", .bearer none "y")] := by
  decide +kernel

end V31

end Verif
