import Verif.Yaml

/-!
# What the YAML helpers should do

Specifications that do not mention tokens, orders of visit or the conversion itself.
-/

namespace Verif.Spec

/-- The last value a JSON object gives to a key. -/
def lastValue (ms : List (String × Any)) (k : String) : Option Any :=
  ((ms.reverse).find? (fun p => p.1 == k)).map Prod.snd

/-- A map key as a string: a string is itself, anything else is printed. -/
def keyText (sprint : Yv → String) (k : Yv) : String :=
  match k with
  | .scalar (.str s) => s
  | _ => sprint k

mutual
/-- Every map in the value, at any depth, has string keys. -/
def StringKeyed : Yv → Prop
  | .scalar _ => True
  | .seq xs => StringKeyedList xs
  | .mapI _ => False
  | .mapS ms => StringKeyedMembers ms
/-- All elements are string-keyed. -/
def StringKeyedList : List Yv → Prop
  | [] => True
  | x :: xs => StringKeyed x ∧ StringKeyedList xs
/-- All members are string-keyed. -/
def StringKeyedMembers : List (String × Yv) → Prop
  | [] => True
  | (_, x) :: xs => StringKeyed x ∧ StringKeyedMembers xs
end

mutual
/-- In every map of the value, at any depth, the keys are written differently. -/
def DistinctKeys (sprint : Yv → String) : Yv → Prop
  | .scalar _ => True
  | .seq xs => DistinctKeysList sprint xs
  | .mapI ms => (ms.map (fun p => keyText sprint p.1)).Nodup ∧ DistinctKeysEntries sprint ms
  | .mapS ms => (ms.map Prod.fst).Nodup ∧ DistinctKeysMembers sprint ms
/-- For the elements of a list. -/
def DistinctKeysList (sprint : Yv → String) : List Yv → Prop
  | [] => True
  | x :: xs => DistinctKeys sprint x ∧ DistinctKeysList sprint xs
/-- For the values of a map with any keys. -/
def DistinctKeysEntries (sprint : Yv → String) : List (Yv × Yv) → Prop
  | [] => True
  | (_, x) :: xs => DistinctKeys sprint x ∧ DistinctKeysEntries sprint xs
/-- For the values of a map with string keys. -/
def DistinctKeysMembers (sprint : Yv → String) : List (String × Yv) → Prop
  | [] => True
  | (_, x) :: xs => DistinctKeys sprint x ∧ DistinctKeysMembers sprint xs
end

mutual
/-- `Represents sprint v w`: `w` is `v` with every map key written as a string. Maps are compared as sets
of entries. -/
def Represents (sprint : Yv → String) : Yv → Yv → Prop
  | .scalar a, w => w = .scalar a
  | .seq xs, w => ∃ ys, w = .seq ys ∧ RepresentsList sprint xs ys
  | .mapI ms, w => ∃ ns, w = .mapS ns ∧ (ns.map Prod.fst).Perm (ms.map (fun p => keyText sprint p.1)) ∧
      RepresentsEntries sprint ms ns
  | .mapS ms, w => ∃ ns, w = .mapS ns ∧ (ns.map Prod.fst).Perm (ms.map Prod.fst) ∧
      RepresentsMembers sprint ms ns
/-- Element by element. -/
def RepresentsList (sprint : Yv → String) : List Yv → List Yv → Prop
  | [], ys => ys = []
  | x :: xs, ys => ∃ y rest, ys = y :: rest ∧ Represents sprint x y ∧ RepresentsList sprint xs rest
/-- Every entry is there, under its written key. -/
def RepresentsEntries (sprint : Yv → String) : List (Yv × Yv) → List (String × Yv) → Prop
  | [], _ => True
  | (k, v) :: rest, ns => (∃ w, (keyText sprint k, w) ∈ ns ∧ Represents sprint v w) ∧
      RepresentsEntries sprint rest ns
/-- Every member is there, under its key. -/
def RepresentsMembers (sprint : Yv → String) : List (String × Yv) → List (String × Yv) → Prop
  | [], _ => True
  | (k, v) :: rest, ns => (∃ w, (k, w) ∈ ns ∧ Represents sprint v w) ∧ RepresentsMembers sprint rest ns
end

end Verif.Spec
