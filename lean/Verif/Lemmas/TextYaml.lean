import Verif.TextYaml
import Verif.Lemmas.TextValue
import Verif.Props.Yaml
import Verif.Spec.YamlDoc

/-!
`json.Decoder.Token` on a text gives the tokens of the value the text denotes.
-/

namespace Verif.Text
open Codec Spec Grammar

/-- The decoder returns these tokens, one after the other, and is then in this state. -/
inductive Yields (N : Nums) : Dec → List Tok → Dec → Prop
  | nil (d : Dec) : Yields N d [] d
  | cons {d d' d'' : Dec} {t : Tok} {ts : List Tok} : d.token N = some (t, d') → Yields N d' ts d'' → Yields N d (t :: ts) d''

section
variable {N : Nums}

theorem Yields.one {d d' : Dec} {t : Tok} (h : d.token N = some (t, d')) : Yields N d [t] d' := .cons h (.nil _)

theorem Yields.append {d e f : Dec} {ts us : List Tok} (h : Yields N d ts e) (h' : Yields N e us f) :
    Yields N d (ts ++ us) f := by
  induction h with
  | nil => exact h'
  | cons ht _ ih => exact .cons ht (ih h')

theorem Yields.congr {s s' : DecState} {k k' : List DecState} {r r' : List Char} {f : Dec} {ts : List Tok}
    (h : token N s k r = token N s' k' r') (hne : ts ≠ []) (hy : Yields N ⟨s', k', r'⟩ ts f) : Yields N ⟨s, k, r⟩ ts f := by
  cases hy with
  | nil => exact absurd rfl hne
  | cons ht hr => exact .cons (h.trans ht) hr

theorem token_blanks {a : List Char} (h : Blanks a) (st : DecState) (stk : List DecState) (r : List Char) :
    token N st stk (a ++ r) = token N st stk r := by
  induction a with
  | nil => rfl
  | cons c a ih =>
    have hc : isSpace c = true := isSpace_iff.2 (h c List.mem_cons_self)
    rw [List.cons_append, token, if_pos hc]
    exact ih (fun x hx => h x (List.mem_cons_of_mem _ hx))

/-- A value that is not an array or object. -/
theorem token_scalar {c : Char} {cs r : List Char} {v : Any} {t : Tok} {st : DecState} (stk : List DecState)
    (hst : valueAllowed st = true)
    (hs : isSpace c = false) (hc : c ≠ '[' ∧ c ≠ ']' ∧ c ≠ '{' ∧ c ≠ '}' ∧ c ≠ ':' ∧ c ≠ ',')
    (hv : scanValue 1 0 (c :: cs) = some (v, r)) (ht : scalarToken N v = some t) :
    token N st stk (c :: cs) = some (t, ⟨valueEnd st, stk, r⟩) := by
  obtain ⟨h1, h2, h3, h4, h5, h6⟩ := hc
  have h7 : ¬(c = '"' ∧ (st = .objectStart ∨ st = .objectKey)) := by
    rintro ⟨_, rfl | rfl⟩ <;> cases hst
  rw [token, if_neg (by simp [hs]), if_neg h1, if_neg h2, if_neg h3, if_neg h4, if_neg h5, if_neg h6, if_neg h7, if_pos hst, hv]
  simp only [ht]

theorem token_open_arr {st : DecState} (stk : List DecState) (hst : valueAllowed st = true) (r : List Char) :
    token N st stk ('[' :: r) = some (.openArr, ⟨.arrayStart, st :: stk, r⟩) := by
  rw [token, if_neg (by decide), if_pos rfl, if_pos hst]

theorem token_open_obj {st : DecState} (stk : List DecState) (hst : valueAllowed st = true) (r : List Char) :
    token N st stk ('{' :: r) = some (.openObj, ⟨.objectStart, st :: stk, r⟩) := by
  rw [token, if_neg (by decide), if_neg (by decide), if_neg (by decide), if_pos rfl, if_pos hst]

theorem token_close_arr {st : DecState} (s : DecState) (stk : List DecState) (hst : st = .arrayStart ∨ st = .arrayComma)
    (r : List Char) : token N st (s :: stk) (']' :: r) = some (.closeArr, ⟨valueEnd s, stk, r⟩) := by
  rw [token, if_neg (by decide), if_neg (by decide), if_pos rfl, if_pos hst]
  rfl

theorem token_close_obj {st : DecState} (s : DecState) (stk : List DecState) (hst : st = .objectStart ∨ st = .objectComma)
    (r : List Char) : token N st (s :: stk) ('}' :: r) = some (.closeObj, ⟨valueEnd s, stk, r⟩) := by
  rw [token, if_neg (by decide), if_neg (by decide), if_neg (by decide), if_neg (by decide), if_pos rfl, if_pos hst]
  rfl

theorem token_comma_arr (stk : List DecState) (r : List Char) :
    token N .arrayComma stk (',' :: r) = token N .arrayValue stk r := by
  rw [token, if_neg (by decide), if_neg (by decide), if_neg (by decide), if_neg (by decide), if_neg (by decide),
    if_neg (by decide), if_pos rfl, if_pos rfl]

theorem token_comma_obj (stk : List DecState) (r : List Char) :
    token N .objectComma stk (',' :: r) = token N .objectKey stk r := by
  rw [token, if_neg (by decide), if_neg (by decide), if_neg (by decide), if_neg (by decide), if_neg (by decide),
    if_neg (by decide), if_pos rfl, if_neg (by decide), if_pos rfl]

theorem token_colon (stk : List DecState) (r : List Char) :
    token N .objectColon stk (':' :: r) = token N .objectValue stk r := by
  rw [token, if_neg (by decide), if_neg (by decide), if_neg (by decide), if_neg (by decide), if_neg (by decide),
    if_pos rfl, if_pos rfl]

theorem token_key {k : List Char} {is : List Item} {st : DecState} (stk : List DecState)
    (hst : st = .objectStart ∨ st = .objectKey) (hk : Body k is) (r : List Char) :
    token N st stk ('"' :: (k ++ '"' :: r)) = some (.str (String.ofList (chars is)), ⟨.objectColon, stk, r⟩) := by
  rw [token, if_neg (by decide), if_neg (by decide), if_neg (by decide), if_neg (by decide), if_neg (by decide),
    if_neg (by decide), if_neg (by decide), if_pos ⟨rfl, hst⟩, scanString_complete hk]

/-- All number literals of the value can be read. -/
def Readable (N : Nums) (ls : List String) : Prop := ∀ l ∈ ls, ∃ x, N.f64 l = some x

theorem Readable.left {as bs : List String} (h : Readable N (as ++ bs)) : Readable N as :=
  fun l hl => h l (List.mem_append_left _ hl)

theorem Readable.right {as bs : List String} (h : Readable N (as ++ bs)) : Readable N bs :=
  fun l hl => h l (List.mem_append_right _ hl)

def VY (N : Nums) (cs : List Char) (v : Any) : Prop :=
  Readable N (literals v) → ∀ st stk r, valueAllowed st = true → Ends r →
    Yields N ⟨st, stk, cs ++ r⟩ (tokens v) ⟨valueEnd st, stk, r⟩

def EY (N : Nums) (cs : List Char) (xs : List Any) : Prop :=
  Readable N (literalsList xs) → ∀ st s stk r, st = .arrayStart ∨ st = .arrayValue →
    Yields N ⟨st, s :: stk, cs ++ ']' :: r⟩ (tokensList xs ++ [.closeArr]) ⟨valueEnd s, stk, r⟩

def MY (N : Nums) (cs : List Char) (ms : List (String × Any)) : Prop :=
  Readable N (literalsMembers ms) → ∀ st s stk r, st = .objectStart ∨ st = .objectKey →
    Yields N ⟨st, s :: stk, cs ++ '}' :: r⟩ (tokensMembers ms ++ [.closeObj]) ⟨valueEnd s, stk, r⟩

theorem tokens_ne (v : Any) : tokens v ≠ [] := by
  intro h
  have := tokens_pos v
  rw [h] at this
  simp at this

theorem Yields.blanks {a : List Char} (h : Blanks a) {st : DecState} {stk : List DecState} {r : List Char} {ts : List Tok}
    {e : Dec} (hne : ts ≠ []) (hy : Yields N ⟨st, stk, r⟩ ts e) : Yields N ⟨st, stk, a ++ r⟩ ts e :=
  hy.congr (token_blanks h st stk r) hne

theorem vy_number {cs : List Char} (h : Number cs) : VY N cs (.num (String.ofList cs)) := by
  intro hr st stk r hst he
  obtain ⟨x, hx⟩ := hr (String.ofList cs) (by simp [literals])
  obtain ⟨c, t, rfl, hc⟩ := number_head h
  have hs := scanNumber_complete h he
  rw [List.cons_append] at hs ⊢
  have key : ∀ x : Char, (x = '-' ∨ x.isDigit = true) = False → c ≠ x := by
    rintro x hx rfl
    rw [← hx]; exact hc
  have hsp : isSpace c = false := by
    cases hx : isSpace c with
    | false => rfl
    | true =>
      rcases isSpace_iff.1 hx with rfl | rfl | rfl | rfl <;> rcases hc with hc | hc <;> revert hc <;> decide
  refine .one (token_scalar stk hst hsp ⟨key _ (by simp), key _ (by simp), key _ (by simp), key _ (by simp), key _ (by simp),
    key _ (by simp)⟩ (by rw [scanValue_number hc, hs]; rfl) ?_)
  simp only [scalarToken, hx]

theorem vy_string {cs : List Char} {is : List Item} (h : Body cs is) :
    VY N ('"' :: (cs ++ ['"'])) (.str (String.ofList (chars is))) := by
  intro _ st stk r hst he
  simp only [List.cons_append, List.append_assoc, List.nil_append]
  refine .one (token_scalar stk hst (by decide) (by decide) (v := .str (String.ofList (chars is))) ?_ rfl)
  rw [scanValue, skip_cons (by decide)]
  simp only [scanString_complete h]
  rfl

theorem ey_one {a cs b : List Char} {x : Any} (ha : Blanks a) (hb : Blanks b) (ih : VY N cs x) :
    EY N (a ++ (cs ++ b)) [x] := by
  intro hr st s stk r hst
  have hva : valueAllowed st = true := by rcases hst with rfl | rfl <;> rfl
  have hve : valueEnd st = .arrayComma := by rcases hst with rfl | rfl <;> rfl
  simp only [List.append_assoc, tokensList, List.nil_append]
  refine .blanks ha (by simp) (.append (ih hr.left st (s :: stk) _ hva (ends_append hb (ends_cons (by decide) _))) ?_)
  rw [hve]
  exact .blanks hb (by simp) (.one (token_close_arr s stk (.inr rfl) r))

theorem ey_more {a cs b rest : List Char} {x : Any} {xs : List Any} (ha : Blanks a) (hb : Blanks b) (ih : VY N cs x)
    (ihr : EY N rest xs) : EY N (a ++ (cs ++ (b ++ ',' :: rest))) (x :: xs) := by
  intro hr st s stk r hst
  have hva : valueAllowed st = true := by rcases hst with rfl | rfl <;> rfl
  have hve : valueEnd st = .arrayComma := by rcases hst with rfl | rfl <;> rfl
  simp only [List.append_assoc, tokensList, List.cons_append]
  refine .blanks ha (by simp) (.append (ih hr.left st (s :: stk) _ hva (ends_append hb (ends_cons (by decide) _))) ?_)
  rw [hve]
  exact .blanks hb (by simp) (.congr (token_comma_arr _ _) (by simp) (ihr hr.right .arrayValue s stk r (.inr rfl)))

theorem my_value {c cs d after : List Char} {x : Any} {stk : List DecState} {ts : List Tok} {e : Dec} (hc : Blanks c)
    (hd : Blanks d) (ih : VY N cs x) (hr : Readable N (literals x)) (he : Ends after) (hne : ts ≠ [])
    (hy : Yields N ⟨.objectComma, stk, after⟩ ts e) :
    Yields N ⟨.objectColon, stk, ':' :: (c ++ (cs ++ (d ++ after)))⟩ (tokens x ++ ts) e := by
  refine Yields.congr (token_colon _ _) (by simp [hne]) ?_
  exact .blanks hc (by simp [hne]) (.append (ih hr .objectValue stk _ rfl (ends_append hd he)) (.blanks hd hne hy))

theorem my_one {a k b c cs d : List Char} {is : List Item} {x : Any} (ha : Blanks a) (hk : Body k is) (hb : Blanks b)
    (hc : Blanks c) (hd : Blanks d) (ih : VY N cs x) :
    MY N (a ++ '"' :: (k ++ '"' :: (b ++ ':' :: (c ++ (cs ++ d))))) [(String.ofList (chars is), x)] := by
  intro hr st s stk r hst
  simp only [List.append_assoc, tokensMembers, List.cons_append, List.nil_append]
  refine .blanks ha (by simp) (.cons (token_key _ hst hk _) (.blanks hb (by simp) ?_))
  exact my_value hc hd ih hr.left (ends_cons (by decide) _) (by simp) (.one (token_close_obj s stk (.inr rfl) r))

theorem my_more {a k b c cs d rest : List Char} {is : List Item} {x : Any} {ms : List (String × Any)} (ha : Blanks a)
    (hk : Body k is) (hb : Blanks b) (hc : Blanks c) (hd : Blanks d) (ih : VY N cs x) (ihr : MY N rest ms) :
    MY N (a ++ '"' :: (k ++ '"' :: (b ++ ':' :: (c ++ (cs ++ (d ++ ',' :: rest))))))
      ((String.ofList (chars is), x) :: ms) := by
  intro hr st s stk r hst
  simp only [List.append_assoc, tokensMembers, List.cons_append]
  refine .blanks ha (by simp) (.cons (token_key _ hst hk _) (.blanks hb (by simp) ?_))
  refine my_value hc hd ih hr.left (ends_cons (by decide) _) (by simp) ?_
  exact .congr (token_comma_obj _ _) (by simp) (ihr hr.right .objectKey s stk r (.inr rfl))

theorem vy_all {cs : List Char} {j : Any} (h : Denotes cs j) : VY N cs j := by
  refine Denotes.rec (motive_1 := fun cs j _ => VY N cs j) (motive_2 := fun cs xs _ => EY N cs xs)
    (motive_3 := fun cs ms _ => MY N cs ms) ?_ ?_ ?_ ?_ ?_ ?_ ?_ ?_ ?_ ?_ ?_ ?_ ?_ h
  · intro _ st stk r hst _
    exact .one (token_scalar stk hst (by decide) (by decide) (v := .null) (by
      rw [scanValue, skip_cons (by decide)]; rfl) rfl)
  · intro _ st stk r hst _
    exact .one (token_scalar stk hst (by decide) (by decide) (v := .bool true) (by
      rw [scanValue, skip_cons (by decide)]; rfl) rfl)
  · intro _ st stk r hst _
    exact .one (token_scalar stk hst (by decide) (by decide) (v := .bool false) (by
      rw [scanValue, skip_cons (by decide)]; rfl) rfl)
  · intro cs h; exact vy_number h
  · intro cs is h; exact vy_string h
  · intro ws h _ st stk r hst _
    simp only [List.cons_append, List.append_assoc, List.nil_append, tokens, tokensList]
    exact .cons (token_open_arr stk hst _) (.blanks h (by simp) (.one (token_close_arr st stk (.inl rfl) r)))
  · intro cs xs h ih hr st stk r hst _
    simp only [List.cons_append, List.append_assoc, List.nil_append, tokens]
    exact .cons (token_open_arr stk hst _) (ih hr .arrayStart st stk r (.inl rfl))
  · intro ws h _ st stk r hst _
    simp only [List.cons_append, List.append_assoc, List.nil_append, tokens, tokensMembers]
    exact .cons (token_open_obj stk hst _) (.blanks h (by simp) (.one (token_close_obj st stk (.inl rfl) r)))
  · intro cs xs h ih hr st stk r hst _
    simp only [List.cons_append, List.append_assoc, List.nil_append, tokens]
    exact .cons (token_open_obj stk hst _) (ih hr .objectStart st stk r (.inl rfl))
  · intro a cs b x ha _ hb ih; exact ey_one ha hb ih
  · intro a cs b rest x xs ha _ hb _ ih ihr; exact ey_more ha hb ih ihr
  · intro a k b c cs d is x ha hk hb hc _ hd ih; exact my_one ha hk hb hc hd ih
  · intro a k b c cs d rest is x ms ha hk hb hc _ hd _ ih ihr; exact my_more ha hk hb hc hd ih ihr

/-- The decoder on a JSON text returns the tokens of its value, then nothing more. -/
theorem yields_text {cs : List Char} {j : Any} (h : JSONText cs j) (hr : Readable N (literals j)) :
    ∃ d, Yields N (newDecoder cs) (tokens j) d ∧ d.token N = none := by
  obtain ⟨a, t, b, rfl, ha, ht, hb⟩ := h
  refine ⟨⟨.top, [], b⟩, .blanks ha (tokens_ne j) (vy_all ht hr .top [] b rfl (by
    have := ends_append hb ends_nil
    simpa using this)), ?_⟩
  have := token_blanks (N := N) hb .top [] []
  simpa [Dec.token, token] using this

/-! ## Reading the keys from the text -/

/-- What is read from the text is what is read from the list of its tokens. -/
def SkipRel (N : Nums) (e : Dec) : Skip → SkipDec → Prop
  | .ok ts, s => ∃ d, s = .ok d ∧ Yields N d ts e
  | .unterminated ts, s => ∃ d, s = .unterminated d ∧ Yields N d ts e
  | .failed, _ => True

theorem skip_rel {e : Dec} (n : Nat) : (∀ ts d, Yields N d ts e → SkipRel N e (skipValue n ts) (skipValueText N n d)) ∧
    (∀ ts d, Yields N d ts e → SkipRel N e (skipLoop n ts) (skipLoopText N n d)) := by
  induction n with
  | zero => exact ⟨fun _ _ _ => by simp [skipValue, SkipRel], fun _ _ _ => by simp [skipLoop, SkipRel]⟩
  | succ n ih =>
    constructor
    · intro ts d hy
      cases hy with
      | nil => simp [skipValue, SkipRel]
      | @cons _ d' _ t ts ht hr =>
        rw [skipValueText, ht]
        cases t with
        | openObj => simp only [skipValue]; exact ih.2 _ _ hr
        | openArr => simp only [skipValue]; exact ih.2 _ _ hr
        | closeObj => simp only [skipValue]; exact ⟨_, rfl, hr⟩
        | closeArr => simp only [skipValue]; exact ⟨_, rfl, hr⟩
        | str s => simp only [skipValue]; exact ⟨_, rfl, hr⟩
        | scalar v => simp only [skipValue]; exact ⟨_, rfl, hr⟩
    · intro ts d hy
      have h1 := ih.1 ts d hy
      rw [skipLoop, skipLoopText]
      cases hs : skipValue n ts with
      | ok rest =>
        rw [hs] at h1
        obtain ⟨d', hd, hy'⟩ := h1
        rw [hd]
        exact ih.2 _ _ hy'
      | unterminated rest =>
        rw [hs] at h1
        obtain ⟨d', hd, hy'⟩ := h1
        rw [hd]
        exact ⟨_, rfl, hy'⟩
      | failed => trivial

theorem keys_rel {e : Dec} (n : Nat) : ∀ ts d keys, Yields N d ts e → keysLoop n ts = some keys →
    keysLoopText N n d = some keys := by
  induction n with
  | zero => intro ts d keys _ h; simp [keysLoop] at h
  | succ n ih =>
    intro ts d keys hy h
    cases hy with
    | nil => simp [keysLoop] at h
    | @cons _ d' _ t ts ht hr =>
      rw [keysLoopText, ht]
      have hs := (skip_rel n).1 ts d' hr
      have step : ∀ t : Tok, t ≠ .closeObj → keysLoop (n + 1) (t :: ts) = some keys →
          (match skipValueText N n d' with
          | .ok d =>
            match keysLoopText N n d with
            | some keys =>
              match t with
              | .str s => some (s :: keys)
              | _ => some keys
            | none => none
          | _ => none) = some keys := by
        intro t hne h
        cases hk : skipValue n ts with
        | failed => cases t <;> first | (exact absurd rfl hne) | simp [keysLoop, hk] at h
        | unterminated rest => cases t <;> first | (exact absurd rfl hne) | simp [keysLoop, hk] at h
        | ok rest =>
          rw [hk] at hs
          obtain ⟨d2, hd2, hy2⟩ := hs
          rw [hd2]
          cases hk2 : keysLoop n rest with
          | none => cases t <;> first | (exact absurd rfl hne) | simp [keysLoop, hk, hk2] at h
          | some ks =>
            simp only [ih rest d2 ks hy2 hk2]
            cases t <;> first | (exact absurd rfl hne) | (simpa [keysLoop, hk, hk2] using h)
      cases t with
      | closeObj => simpa [keysLoop] using h
      | openObj => exact step _ (by simp) h
      | openArr => exact step _ (by simp) h
      | closeArr => exact step _ (by simp) h
      | str s => exact step _ (by simp) h
      | scalar v => exact step _ (by simp) h

/-! ## Fuel -/

/-- A token is at least a character. -/
theorem token_shorter {st : DecState} {stk : List DecState} {cs : List Char} {t : Tok} {d : Dec}
    (h : token N st stk cs = some (t, d)) : d.rest.length < cs.length := by
  induction cs generalizing st with
  | nil => simp [token] at h
  | cons c r ih =>
    have pop : ∀ t', popState t' stk r = some (t, d) → d.rest.length < (c :: r).length := by
      intro t' h
      unfold popState at h
      split at h
      · cases h
      · cases h; simp
    have lt : ∀ st', token N st' stk r = some (t, d) → d.rest.length < (c :: r).length := by
      intro st' h
      have := ih h
      simp; omega
    rw [token] at h
    split at h
    · exact lt _ h
    split at h
    · split at h
      · cases h; simp
      · cases h
    split at h
    · split at h
      · exact pop _ h
      · cases h
    split at h
    · split at h
      · cases h; simp
      · cases h
    split at h
    · split at h
      · exact pop _ h
      · cases h
    split at h
    · split at h
      · exact lt _ h
      · cases h
    split at h
    · split at h
      · exact lt _ h
      · split at h
        · exact lt _ h
        · cases h
    split at h
    · split at h
      · rename_i s r' hs
        cases h
        obtain ⟨b, is, hb, rfl, rfl⟩ := scanString_sound hs
        simp; omega
      · cases h
    split at h
    · split at h
      · rename_i v r' hv
        split at h
        · cases h
          obtain ⟨a, t', e, _, hd, _⟩ := (sound_all _).1 _ _ _ _ hv
          obtain ⟨x, y, rfl, _⟩ := denotes_head hd
          rw [e]
          simp; omega
        · cases h
      · cases h
    · cases h

theorem yields_length {d e : Dec} {ts : List Tok} (h : Yields N d ts e) : ts.length ≤ d.rest.length := by
  induction h with
  | nil => simp
  | cons ht _ ih =>
    have := token_shorter ht
    simp only [List.length_cons]
    omega

end

end Verif.Text
