import Verif.TextYaml
import Verif.Codec.Into

/-!
# Reading texts into a document that has content

`Spec.UnmarshalJSON` and `Spec.UnmarshalYAML` start from what their receiver holds (`Verif.Codec.Into`).
-/

namespace Verif.Text
open Codec Spec

/-- `json.Unmarshal(data, &v)` for a `v` that holds `cur`, e.g. `Spec.UnmarshalJSON` (`/repo/openapi3/entities.go:134-199`).
A text that is not JSON is refused before anything is read. Simplification: what a failing call leaves behind is not
modelled. -/
def unmarshalInto (T : Table) (N : Nums) (ty : Ty) (cur : Val) (cs : List Char) : Option Val :=
  match parse cs with
  | some j => decodeInto T N ty cur j
  | none => none

/-- `Spec.UnmarshalYAML` (`/repo/openapi3/yaml.go:13-30`, `/repo/openapi31/yaml.go:13-30`) of a document that holds `cur`. -/
def unmarshalYAMLInto (T : Table) (N : Nums) (Y : YamlLib) (sprint : Yv → String) (o : YOrder)
    (scalarJSON : Any → Option Any) (cur : Val) (data : String) : Option Val :=
  match Y.unmarshal data with
  | none => none
  | some v =>
    match marshalDyn scalarJSON (convertMap sprint o [] v) with
    | none => none
    | some j => unmarshalInto T N (.named "Spec") cur (text j)

end Verif.Text
