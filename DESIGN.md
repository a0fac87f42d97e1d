# Design of the formal model of swaggest/openapi-go

All Lean code is in `lean/Verif/`. Every definition of the model cites the file and lines of `/repo` it models.
`MANIFEST.json` maps each property of `properties.jsonl` to the theorems that prove it.

## Layout

| module | models |
|---|---|
| `Verif.Go` | Go maps (association lists with `get`/`set`), `strings.ToLower/ToUpper/Replace/HasPrefix/TrimPrefix/Split`, `strconv.Itoa`, `http.StatusText`, joined errors |
| `Verif.Path` | `SanitizeMethodPath` (operation.go) |
| `Verif.Spec30`, `Verif.Spec31` | documents, path items, operations, `validatePathParams`, `SetupOperation`, `AddOperation`, `AddWebhook`, security setters (helper.go of both packages) |
| `Verif.JSchema`, `Verif.Schema30`, `Verif.Refs31` | `jsonschema.Schema`, OpenAPI 3.0 `Schema`, `FromJSONSchema`, `ToJSONSchema`, `findReferences` |
| `Verif.Reflect` | `ReflectRequestBody` & co. (internal/json_schema.go), `setupRequest`, `setupResponse`, `AddOperation` of both reflectors |
| `Verif.OpCtx` | operation contexts, content units, options |
| `Verif.Deprecated` | the old interface of the 3.0 reflector (reflect_deprecated.go) |
| `Verif.Union`, `Verif.Yaml` | `marshalUnion`, `objectKeys`, `skipValue`, `convertMapI2MapS` |
| `Verif.Codec*` | generated `MarshalJSON`/`UnmarshalJSON` of the entities, as an interpreter over a table of type descriptions extracted from entities.go |
| `Verif.Walk` | schema walkers |
| `Verif.Union` | `marshalUnion` of both packages, on characters |
| `Verif.Yaml` | `yaml.go` of both packages: ordered maps over JSON tokens, conversion of dynamic YAML values |
| `Verif.TextYaml` | the same on texts, with `json.Decoder.Token` on characters |
| `Verif.Refl`, `Verif.Spec.Refl`, `Verif.Props.Refl` | programs over several reflectors; one reflector alone; C97 |
| `Verif.Spec.PublishText`, `Verif.Lemmas.PublishText`, `Verif.Props.PublishText` | texts of documents built by calls; C98 |
| `Verif.Sorted`, `Verif.Spec.Sorted`, `Verif.Lemmas.Sorted`, `SortedEncode`, `SortedWritable`, `SortedBack`, `SortedParts`, `SortedRead`, `Verif.Props.Sorted` | maps written in the order of their keys; C100 |
| `Verif.Spec.Again`, `Verif.Lemmas.Again`, `AgainMain`, `Settled`, `Numbers`, `Exact`, `Verif.Props.Again`, `Settles` | saving what was loaded; C99 |
| `Verif.Spec.Names`, `Verif.Props.Names` | comparison of member names by `encoding/json`; C101 |
| `Verif.Codec.Into`, `Verif.Spec.Into`, `Verif.Lemmas.Into`, `Verif.Lemmas.IntoSome`, `Verif.Lemmas.IntoParts`, `Verif.Props.Into` | `json.Unmarshal` into a value that has content; C101, C102. Values are trees (no aliasing), slices have no elements beyond their length |
| `Verif.Spec.PathFields`, `Verif.Props.PathFields`, `Verif.Lemmas.Refs31Exact`, `Verif.Props.Refs31Exact` | C14 without conditions; C27 of 3.1 and C64 for components that do not decode or are absent |
| `Verif.Schema30On`, `Verif.Spec.On`, `Verif.Props.On` | `FromJSONSchema` on a receiver that has content; C103 |
| `Verif.BodyCalls`, `Verif.Spec.BodyCalls`, `Verif.Props.BodyCalls` | The callbacks that `ReflectRequestBody` hands to the dependency: names of definitions, nullability, files; C104, C105 |
| `Verif.Spec.Rest30`, `Verif.Props.Rest30` | The keywords of the 3.0 meta-schema that `Meta30` skips, on the JSON of built documents; C106 |
| `Verif.Spec.Closed`, `Verif.Props.Closed` | References to component schemas at any depth, where schemas occur in a document, histories of successful calls; C107 |
| `Verif.TextInto`, `Verif.Props.TextInto` | `Spec.UnmarshalJSON` and `Spec.UnmarshalYAML` on texts, for a document that has content; C108 |
| `Verif.Text` | the `MarshalJSON` and `UnmarshalJSON` methods on texts, the scanner of `encoding/json` |

For each model file `X` the specification vocabulary is in `Verif.Spec.X` and the property theorems in `Verif.Props.X`;
helper lemmas are in `Verif.Lemmas.X`.

## How Go is modelled

* **Strings** are Lean strings or lists of characters (Unicode code points). Go strings are bytes; invalid UTF-8 is not modelled.
* **Maps** are association lists with Go's `get` and `set`. Iteration order is a list order; theorems that depend on
  iteration quantify over every permutation. `nil` and empty maps are not distinguished unless stated.
* **Pointers** are `Option`. Aliasing is modelled only where the code relies on it (3.1 `SetupOperation` edits the stored
  operation in place) and in `Mem.lean`, which models the storing of operations of 3.0 on memory with addresses (C88, C89), and `Mem31.lean`, which does so for 3.1 (C90, C91).
  Everywhere else a copied struct is a copy; in particular the operation
  that `Reflector.AddOperation` stores shares maps and pointers with the context in Go, and is a copy here.
* **Errors** are explicit results. Where the code would panic, the model returns an explicit panic result.
* **Recursion** that is not structural in Go (following references) has a fuel parameter; termination is then a theorem:
  a sufficient amount of fuel exists and more fuel does not change the result.
* **Dependencies** (`jsonschema-go`, `refl`, `encoding/json`, `yaml.v2`) are not available. What they report about a user's
  Go value is an arbitrary value of a structure (an oracle), over which theorems quantify. `encoding/json` is modelled at
  the level of JSON trees in `Codec`, and on texts (its scanner and its compact output) in `Text`.

* **Customise functions** edit the value they are given and nothing else.
* **Reflection** by `jsonschema-go` is a list of callbacks (definitions and properties) in order, then a result; the library's
  own callbacks are modelled, and the first error of a callback ends the reflection with that error.

## Properties and plan

| id | plan |
|---|---|
| C01 | decision logic of `SanitizeMethodPath`, iff with the list of methods, for all strings |
| C02 | the scanner and first-occurrence replacement are modelled; refinement to a declarative leftmost decomposition of the path; uniqueness of that decomposition |
| C03, C04 | from C02 by induction on the decomposition |
| C05, C06 | loop invariant of the validation fold; iff with a declarative statement; permutation of the placeholder list |
| C07, C08, C09 | case analysis on the modelled `AddOperation`; lookup lemmas of maps; C08 (3.1) and C09 state the exact condition under which a stored operation is replaced (`Props/DocExact.lean`) |
| C10 | induction over a list of calls; for 3.1 with the last call about an operation |
| C11 | case analysis; for 3.1 the exact document after an error; witness that it can be inconsistent |
| C12 | case analysis |
| C13-C15 | invariants of the modelled reflection loop over an arbitrary oracle |
| C16, C17, C24 | decision logic of `ReflectRequestBody`, `setupRequest`, `setupResponse` for an arbitrary oracle |
| C18 | digits of `Itoa`, for all integers |
| C19-C23, C25, C52-C57 | every change that `setupRequest`/`setupResponse` can make is one of a few kinds of steps (`ReqStep`, `EntryStep`); invariants of the steps for any outcome, exact results for successful calls; then the calls on documents |
| C58, C59 | each part of the reflection is shown to end normally exactly if what it needs is available (`ParamAct`, `Settled`), and these are composed |
| C60 | the version-specific parts of the 3.0 and 3.1 reflectors, put into C53, C55, C56; exact media types by an invariant of the tag loop |
| C26 | mutual structural induction over schemas |
| C27-C30, C33 | the traversal state is characterised exactly (pure conversion, reachable names, occurrence counts), hence termination, closure and order independence |
| C31, C32 | negation with witness; equation |
| C51 | a relation between the annotations of two nodes; case analysis |
| C48-C50 | a semantics of schemas (`Spec.Valid`: which JSON values are accepted, with references followed to a depth) over an arbitrary meaning of numbers, patterns and formats; mutual structural induction, then induction over the depth |
| C34 | induction over lists of printed objects, character level |
| C35 | `Spec.Writable` (well-formed values) and `Spec.Same` (what may differ); `writable_good` by induction over `Writable`, given facts about a table (`Facts`); the facts are checks that the kernel computes (ranks, plain structs, pairwise exclusive alternatives) and separate proofs for the types that do not fit: 3.0 parameters and HTTP schemes, 3.1 security schemes |
| C36-C39 | the interpreter's `UnmarshalJSON` as an iff (`decode_struct_some`); what the tables have to satisfy is a check that the kernel computes |
| C67-C72 | the same, for what the codecs do not do; concrete documents by computation in the kernel |
| C73 | `Spec.Everywhere` and `Spec.clean30`/`clean31` (which values are excepted); `load`: what was read is `Writable`, by induction on the size of the JSON value and on the rank of the type, from an inversion of the decoder (`loaded`); then C35 |
| C74 | a relation between the JSON values and between the Go values, preserved by every step of the decoder (`decode_rel`); induction on size and rank |
| C75 | induction over `Writable` as in C35: the parts of a written struct have keys that do not overlap; for the spellings of field names a second induction (`Lemmas/ClearWritten`): the written struct has only the keys of its profile, and a table check, evaluated by the kernel, says of every struct and every alternative that is tried on such an object that no two of these keys are one field; an inversion of the decoder for the repeated keys |
| C76 | the YAML library is an oracle with the property that it reads what it wrote; composition of C35, C40 and C74 |
| C80 | document getters and setters in the model; invariant over histories of calls |
| C81 | case analysis of `setupOC` and of the callback for parameters |
| C77, C78, C79 | the published JSON Schema of OpenAPI 3.0, transcribed by `tools/metaschema.py`, gets a meaning of its own (`Spec/Meta`); a comparison of the generated tables with it, checked by the kernel, and an induction over JSON values in both directions; C77 from C35, C75 and C79 |
| C82 | the published JSON Schema of OpenAPI 3.1, transcribed by `tools/metaschema31.py`, gets a meaning with the members it evaluates (`Spec/Meta2020`); a comparison of the generated tables with it, checked by the kernel; an induction over JSON values for each direction |
| C83 | the documents of the reflection model (`Spec30`, `Reflect`) are mapped to Go values of the encoding model (`docVal` in `Spec/Publish30`, `schemaVal` in `Spec/PublishSchema30`); the conditions of OpenAPI (`Published`) are an invariant of all calls with conforming input, by induction over the sequence of calls and through every callback; conforming documents meet the hypotheses of C35 and C77; counterexamples for input outside the conditions by C78 |
| C84 | as C83 for 3.1: documents are mapped to Go values in `Spec/Publish31` (a schema is a `map[string]interface{}`), the invariant is carried through all calls, webhooks and failing calls included; that the meta-schema accepts what is written is proved directly, object by object (`Lemmas/Publish31`, `Lemmas/PublishDoc31`), since 3.1 has no analogue of C77; counterexamples by evaluating the meta-schema (`Lemmas/Meta31Eval`, proved correct) |
| C85 | the JSON of model documents is given in `Spec/DocJson`, in OpenAPI's terms; that the codec writes exactly it is proved object by object from the struct tables (`Lemmas/DocJson`, `DocJson30`, `DocJson31`), for 3.0 schemas by induction (`Lemmas/DocJsonSchema30`); for built documents by C83 and C84 |
| C86 | the reflector with the mutable content of the operation context and a log of what callbacks see (`Seen`); it does the same as the reflector without (simulation); invariant: the content is that of the current call; what callbacks should see is `Spec/Seen` |
| C87 | `Codec/Builder.lean` models the four bodies of the generated builder methods; `tools/builders.py` lists all 709 methods of both `entities.go` (`Codec/Builders30.lean`, `Builders31.lean`) and stops at any other body. `Spec/Builder.lean` says which methods a field should have and what they should do. Proved by checks of the full tables (kernel) and induction over calls and chains; the JSON part splits the parts of `marshalUnion` at the field. |
| C88 | `Mem.lean` models `SetupOperation` and `AddOperation` of 3.0 on memory: objects with addresses, structs copied, maps, pointers and slices shared. `Spec/Mem.lean` defines reachability, reading to a depth, the document's own objects and what a function with given references can do (`Confined`). Proved by induction on reachability and by an invariant (`Apart`) kept by every call; `Declares` and `Fits` say which parameters memory has and when they fit the path; a concrete memory shows that the sharing is real. |
| C89 | `Reflector.AddOperation` of 3.0 on the memory of C88: the reflection is any function that uses the operation of the context and given objects (`Reflects`). `Added` is any sequence of additions with new contexts; the invariant of C88 gives that operations in the document persist. `C89_shared` shows, for every document, that a context which was added still shares its map of responses. |
| C90 | `Mem31.lean` models `SetupOperation`, `AddOperation` and `AddWebhook` of 3.1 on the same memory; paths, operations and responses are pointers there. `Spec/Mem31.lean` has the layout of documents and the invariant (`Apart`) kept by every call. The theorems say which objects a call can have changed, what is at the path, method or name afterwards, and what is shared. |
| C91 | `Reflector.AddOperation` and `Reflector.AddWebhook` of 3.1 on the memory of C90, with the reflection as in C89. `Added` is any sequence of additions with new contexts; operations and webhooks in the document persist. |
| C92, C93 | Over the codec tables, as C35. `Spec/Members.lean` says what an unset field is and lists the members that may be `null`; which keys are required is the list of C37. A check of the tables and general lemmas about written objects and read fields. |
| C94, C95 | `Text.lean` models the `MarshalJSON` methods on characters (parts joined by `marshalUnion`, checked by `json.Marshal`) and the scanner of `encoding/json` with its limit of 10000 levels. `Spec/Text.lean` is the grammar of RFC 8259 as an inductive relation. The scanner is proved sound and complete for the grammar, the text of a value to denote it, and writing on texts to agree with writing on values (C34, C35) by induction on the value. |
| C96 | `TextYaml.lean` models `json.Decoder.Token` as the state machine of `encoding/json` on characters, and `objectKeys`, `skipValue`, `orderedMap.UnmarshalJSON`, `MarshalYAML` and `UnmarshalYAML` on top of it. By induction on the grammar of JSON the decoder returns the tokens of the value a text denotes; a simulation then carries C40 and C76 from token lists and values to texts. |
| C97 | `Refl.lean` models programs that use several reflectors, pointers to their documents and operation contexts, with the documents in a memory. A simulation, step by step, relates the memory to one address-free reflector (`Spec/Refl.lean`) per reflector of the program; the invariant is that no two reflectors point to the same document. Frame and identity of pointers are proved for every program, also ones that assign `Spec`. |
| C98 | joins C83/C84, C85, C94 and C96 for documents built by any history: their values are `Writable`, so by induction over `Writable` all their numbers are JSON numbers if `strconv` prints JSON numbers (`PrintsNumbers`, `Spec/PublishText`), and the text theorems apply to the JSON of C85 |
| C99 | `encode (decode (encode v)) = encode v` by induction over `Writable` (`Lemmas/Again`, `AgainMain`): each decoded struct is given explicitly, field by field, and is written with the same members in the same order; in 3.0 parameters and HTTP schemes write the fields that repeat others twice once a reader has filled them in, so there it is proved for values where they are filled in (`Spec.filled`); joined with C94, C73 and C98 for texts, loaded files and built documents. That reading fills them in (`Lemmas/Settled`) is proved by a second induction, with the explicit form of each struct that is read |
| C100 | `Text.save` sorts every map of the value and writes it (`Verif/Sorted.lean`); sorting is a permutation, depends only on the set of entries and is the identity on sorted lists; encoding commutes with reordering (`Lemmas/SortedEncode`, by induction on the size of the value); sorting keeps `Writable`, and what is read from the text of a sorted value is sorted (`Lemmas/SortedWritable`, `SortedBack`, `SortedParts`), so C94 and C99 carry over; reading JSON with its members in order gives maps in order, and with C74 the raw copies of parameters of 3.0 stay copies when sorted (`SortedRead`) |
| C101 | `foldKey` agrees with the letter-by-letter comparison of `Spec/Names` (`SameName`); the search for a field is characterised by `MeantFor`; what a field holds is the relation `ReadOver`, which reads the members one over the other |
| C102 | `decodeInto` takes the value before. Induction over the size of the JSON and the rank of the type shows that from a zero value, or the value read, it is `decode` (if members for the same field agree), and that success does not depend on the value; `into_parts` takes `intoStruct` apart into fields, embedded types, alternatives and maps |
| C103 | `fromJSOn` takes the receiver with its two pointers; `Overlaid` says field by field what comes from the conversion into a new value (`fromJS`) and what stays; case analysis, induction over types and extensions |
| C104 | `prefixDefName` and the name callback; form names are compared with JSON names; frame of `parseRequestBody` on the component map by induction over the definitions |
| C105 | `interceptFile`, `interceptNullability` on the fields of the schema they are given; `RemoveType` is a parameter with a contract (`Removes`); induction over the visited values |
| C106 | Invariant of all histories (version, responses, unique parameters), carried to the JSON of C85 member by member |
| C107 | The invariants of C83 and C84 with the predicate `refers only to names of components`, which C54 shows to be met by what a successful reflection stores; conversion makes no references (induction on the reference) |
| C108 | `TextInto.lean` models `UnmarshalJSON` and `UnmarshalYAML` with a receiver that has content: the parser of C95 followed by the reader of C102. Texts: C95 with C102. YAML: the converted value is the written JSON in another order (C76), it has one spelling of each name as the written one has (C75), so C102 applies to it. |
| C40, C41 | token-stream decoder; structural induction |
| C42 | a relation (`Walked`) between the places to tell about, an arbitrary stateful callback, and the calls; simulation by induction |
| C63, C64 | from C54, C19 and C59 for the set-up operation; then C27 for the schemas |
| C65 | case analysis; C27, C28 and C48 |
| C66 | induction over the characters; the facts about single characters for all of ASCII |
| C43, C44, C47 | refinement: fold over an arbitrary list of calls |
| C61, C62 | from C23 and the last step of the request loop; unfolding the translations, with C44 for the mappings |
| C45, C46 | induction over lists |

## Trusted base

* Lean's kernel (4.33.0). Axioms allowed: `propext`, `Classical.choice`, `Quot.sound`. No others, no `sorry`, no `native_decide`.
* The reading of the Go code as recorded in the comments of each definition.
* `tools/codec.py`, which writes the type tables (`Verif.Codec.Table30`, `Table31`) from `entities.go`. It stops at any
  statement of a `MarshalJSON` or `UnmarshalJSON` method that is not one of the blocks described in `Verif.Codec.Basic`.
* `tools/builders.py`, which writes the tables of builder methods (`Verif.Codec.Builders30`, `Builders31`) from `entities.go`.
  It reads every method besides `MarshalJSON` and `UnmarshalJSON`, and stops at any other body than the four of
  `Verif.Codec.Builder`.
* `tools/metaschema.py`, which transcribes `/repo/resources/schema/openapi3.json` into `Verif.Spec.Meta30` (C77-C79), and the
  list of keywords it leaves out, at the top of that file. `tools/metaschema31.py`, which does the same for
  `/repo/resources/schema/openapi31.json` and `Verif.Spec.Meta31` (C82).

## Agreement with the tests of /repo

`Verif/Conformance` runs the model on data of `/repo`'s own tests. These modules are tests of the reading of the code, not
proofs of properties; no claim of `MANIFEST.json` refers to them. `tools/conformance.py` writes the ones with data.

* `Entities30`: the 75 round trips of `openapi3/entities_test.go` give the same JSON in the model.
* `Documents30`, `Documents31`: every document that a test of the two packages expects (66 of them) is read by the model and
  written back, up to the default `style`; two are written by the code but not readable: one has a path
  parameter without `required: true`, the other an example that is no reference (C67).
* `Helper`: the tests of `helper_test.go` of both packages, with their error messages and JSON.
* `Reflect`: `AddOperation_request` (both packages), `AddOperation_uploadInterface` and `AddOperation_JSON_response` of the
  reflectors with hand-written oracle data, down to the JSON of the document and the results of `ToJSONSchema`.
* `tools/conformance.py --big` runs the decoder on the two large documents of `openapi3/testdata`: the model rejects the one
  that `TestSpec_UnmarshalJSON_openai` expects to be rejected and reads the other.

## Not modelled

* Bodies of `jsonschema-go`, `refl`, the number conversions of `strconv`, `yaml.v2`; goroutines (the library starts none);
  invalid UTF-8; memory aliasing apart from what is stated above.
* What a call that returns an error leaves behind in the value it was reading into (C102, C108); for operations see C08 and C21.
* `Reflector.JSONSchemaReflector` of both packages, which return the address of a field. Every other function of the
  non-test files of `/repo` is cited by a definition of the model.
* Texts of errors, apart from what C45 and C81 say about them.
