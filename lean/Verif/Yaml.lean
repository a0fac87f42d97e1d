import Verif.Codec.Basic

/-!
# YAML helpers

Models `/repo/openapi3/yaml.go` and the identical `/repo/openapi31/yaml.go`: the ordered-map decoder
(`objectKeys`, `skipValue`, `orderedMap.UnmarshalJSON`) over the token stream of `json.Decoder`, and
`convertMapI2MapS` over dynamic YAML values.
-/

namespace Verif

/-! ## Token streams -/

/-- A token returned by `json.Decoder.Token` (`/repo/openapi3/yaml.go:74,87,110`): a delimiter, a string,
or any other scalar. -/
inductive Tok where
  | openObj
  | closeObj
  | openArr
  | closeArr
  | str (s : String)
  | scalar (v : Any)

/-- What `skipValue` returns, with the rest of the stream. `unterminated` is `errUnterminated`
(`/repo/openapi3/yaml.go:107`), `failed` any other error, here the end of the stream. -/
inductive Skip where
  | ok (rest : List Tok)
  | unterminated (rest : List Tok)
  | failed

mutual
/-- `skipValue` (`/repo/openapi3/yaml.go:109-132`). The fuel bounds the recursion, which consumes a token
per call; `C40_skip` shows that the length of the stream is enough. -/
def skipValue : Nat → List Tok → Skip
  | 0, _ => .failed
  | _ + 1, [] => .failed
  | n + 1, t :: rest =>
    match t with
    | .openObj | .openArr => skipLoop n rest
    | .closeObj | .closeArr => .unterminated rest
    | .str _ | .scalar _ => .ok rest
/-- The loop of `skipValue` (`/repo/openapi3/yaml.go:117-126`). -/
def skipLoop : Nat → List Tok → Skip
  | 0, _ => .failed
  | n + 1, ts =>
    match skipValue n ts with
    | .ok rest => skipLoop n rest
    | .unterminated rest => .ok rest
    | .failed => .failed
end

/-- The loop of `objectKeys` (`/repo/openapi3/yaml.go:86-104`); `none` is an error. -/
def keysLoop : Nat → List Tok → Option (List String)
  | 0, _ => none
  | _ + 1, [] => none
  | _ + 1, .closeObj :: _ => some []
  | n + 1, t :: rest =>
    match skipValue n rest with
    | .ok rest' =>
      match keysLoop n rest' with
      | some keys =>
        match t with
        | .str s => some (s :: keys)
        | _ => some keys
      | none => none
    | _ => none

/-- `objectKeys` (`/repo/openapi3/yaml.go:73-105`). -/
def objectKeys (ts : List Tok) : Option (List String) :=
  match ts with
  | .openObj :: rest => keysLoop (2 * rest.length + 2) rest
  | _ => none

mutual
/-- The tokens `json.Decoder` produces for a JSON value (`encoding/json`). -/
def tokens : Any → List Tok
  | .null => [.scalar .null]
  | .bool b => [.scalar (.bool b)]
  | .num n => [.scalar (.num n)]
  | .str s => [.str s]
  | .arr xs => .openArr :: (tokensList xs ++ [.closeArr])
  | .obj ms => .openObj :: (tokensMembers ms ++ [.closeObj])
/-- The tokens of array elements. -/
def tokensList : List Any → List Tok
  | [] => []
  | x :: xs => tokens x ++ tokensList xs
/-- The tokens of object members. -/
def tokensMembers : List (String × Any) → List Tok
  | [] => []
  | (k, v) :: ms => .str k :: (tokens v ++ tokensMembers ms)
end

/-- `json.Unmarshal(data, &mapData)` into a `map[string]interface{}` (`/repo/openapi3/yaml.go:52-54`):
an object fills the map member by member, `null` leaves it empty, anything else fails. Members are written
in order, so a repeated key keeps its last value; values are read as `interface{}`, so numbers are read as
`float64`. -/
def decodeMap (N : Codec.Nums) : Any → Option (GoMap Any)
  | .obj ms => (Codec.decodeAnyMembers N ms).map Codec.lastWins
  | .null => some []
  | _ => none

/-- `orderedMap.UnmarshalJSON` (`/repo/openapi3/yaml.go:50-71`): the items of the `yaml.MapSlice`. A
missing `mapData[key]` would be a nil interface (`null`). -/
def orderedMap (N : Codec.Nums) (data : Any) : Option (List (String × Any)) :=
  match decodeMap N data with
  | none => none
  | some mapData =>
    match objectKeys (tokens data) with
    | none => none
    | some keys => some (keys.map (fun k => (k, (GoMap.get? mapData k).getD .null)))

/-! ## Dynamic YAML values -/

/-- A value of `yaml.Unmarshal(data, &v)`: scalars, lists, `map[interface{}]interface{}` (any keys) and
`map[string]interface{}`. -/
inductive Yv where
  | scalar (v : Any)
  | seq (xs : List Yv)
  | mapI (ms : List (Yv × Yv))
  | mapS (ms : List (String × Yv))

/-- The order in which `for k, v2 := range x` visits the entries of a map
(`/repo/openapi3/yaml.go:152`): for every place in the value, any permutation. -/
structure YOrder where
  ord : List Nat → List (String × Yv) → List (String × Yv)
  perm : ∀ path l, (ord path l).Perm l

/-- `fmt.Sprint(k)`, or the key itself if it is a string (`/repo/openapi3/yaml.go:153-158`). `sprint` is
the formatting of other keys. -/
def keyString (sprint : Yv → String) : Yv → String
  | .scalar (.str s) => s
  | k => sprint k

mutual
/-- `convertMapI2MapS` (`/repo/openapi3/yaml.go:148-176`, `/repo/openapi31/yaml.go:148-176`). `path` is the place of the value in the whole
document, only used to let every map have its own iteration order. -/
def convertMap (sprint : Yv → String) (o : YOrder) (path : List Nat) : Yv → Yv
  | .scalar v => .scalar v
  | .seq xs => .seq (convertList sprint o path 0 xs)
  | .mapI ms =>
    .mapS ((o.ord path (convertEntries sprint o path 0 ms)).foldl (fun m p => GoMap.set m p.1 p.2) [])
  | .mapS ms => .mapS (convertMembers sprint o path 0 ms)
/-- The loop over a list (`/repo/openapi3/yaml.go:164-166`). -/
def convertList (sprint : Yv → String) (o : YOrder) (path : List Nat) (i : Nat) : List Yv → List Yv
  | [] => []
  | x :: xs => convertMap sprint o (i :: path) x :: convertList sprint o path (i + 1) xs
/-- The converted entries of a `map[interface{}]interface{}` with their string keys
(`/repo/openapi3/yaml.go:152-159`). -/
def convertEntries (sprint : Yv → String) (o : YOrder) (path : List Nat) (i : Nat) :
    List (Yv × Yv) → List (String × Yv)
  | [] => []
  | (k, v) :: ms => (keyString sprint k, convertMap sprint o (i :: path) v) ::
      convertEntries sprint o path (i + 1) ms
/-- The loop over a `map[string]interface{}` (`/repo/openapi3/yaml.go:169-171`). -/
def convertMembers (sprint : Yv → String) (o : YOrder) (path : List Nat) (i : Nat) :
    List (String × Yv) → List (String × Yv)
  | [] => []
  | (k, v) :: ms => (k, convertMap sprint o (i :: path) v) :: convertMembers sprint o path (i + 1) ms
end

mutual
/-- `json.Marshal(v)` of a dynamic value (`/repo/openapi3/yaml.go:23`), as a JSON tree: a
`map[interface{}]interface{}` is refused. `scalarJSON` is the marshalling of scalars, which refuses e.g.
infinite floats. -/
def marshalDyn (scalarJSON : Any → Option Any) : Yv → Option Any
  | .scalar v => scalarJSON v
  | .seq xs => (marshalDynList scalarJSON xs).map .arr
  | .mapI _ => none
  | .mapS ms => (marshalDynMembers scalarJSON ms).map .obj
/-- The elements of a list. -/
def marshalDynList (scalarJSON : Any → Option Any) : List Yv → Option (List Any)
  | [] => some []
  | x :: xs =>
    match marshalDyn scalarJSON x, marshalDynList scalarJSON xs with
    | some j, some js => some (j :: js)
    | _, _ => none
/-- The members of a map. -/
def marshalDynMembers (scalarJSON : Any → Option Any) : List (String × Yv) → Option (List (String × Any))
  | [] => some []
  | (k, x) :: xs =>
    match marshalDyn scalarJSON x, marshalDynMembers scalarJSON xs with
    | some j, some js => some ((k, j) :: js)
    | _, _ => none
end

/-! ## Documents -/

/-- `gopkg.in/yaml.v2`: `yaml.Marshal` of a `yaml.MapSlice` and `yaml.Unmarshal` into an `interface{}`. -/
structure YamlLib where
  marshal : List (String × Any) → Option String
  unmarshal : String → Option Yv

/-- `Spec.MarshalYAML` (`/repo/openapi3/yaml.go:32-47`, `/repo/openapi31/yaml.go:32-47`); `T` is the table of the
package. Errors are not distinguished. -/
def marshalYAML (T : Codec.Table) (N : Codec.Nums) (Y : YamlLib) (v : Codec.Val) : Option String :=
  match Codec.encode T (.named "Spec") v with
  | none => none
  | some jsonData =>
    match orderedMap N jsonData with
    | none => none
    | some items => Y.marshal items

/-- `Spec.UnmarshalYAML` (`/repo/openapi3/yaml.go:13-30`, `/repo/openapi31/yaml.go:13-30`) of a new document. -/
def unmarshalYAML (T : Codec.Table) (N : Codec.Nums) (Y : YamlLib) (sprint : Yv → String) (o : YOrder)
    (scalarJSON : Any → Option Any) (data : String) : Option Codec.Val :=
  match Y.unmarshal data with
  | none => none
  | some v =>
    match marshalDyn scalarJSON (convertMap sprint o [] v) with
    | none => none
    | some jsonData => Codec.decode T N (.named "Spec") jsonData

end Verif
