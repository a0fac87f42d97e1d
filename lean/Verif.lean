import Verif.Go
import Verif.Path
import Verif.Entities
import Verif.Spec30
import Verif.Spec31
import Verif.Props.Path
import Verif.Props.Params
import Verif.Props.Doc30
import Verif.Props.Doc31
import Verif.Props.DocExact
import Verif.Props.Security
import Verif.JSchema
import Verif.Schema30
import Verif.Spec.Schema
import Verif.Lemmas.Dfs
import Verif.Lemmas.Schema30
import Verif.Props.Schema30
import Verif.Spec.Valid
import Verif.Props.Valid30
import Verif.Spec.Carry
import Verif.Props.Convert30
import Verif.Lemmas.NoComps30
import Verif.Refs31
import Verif.Spec.Refs31
import Verif.Lemmas.Refs31
import Verif.Spec.Valid31
import Verif.Props.Refs31
import Verif.OpCtx
import Verif.Http
import Verif.Reflect
import Verif.Spec.Http
import Verif.Lemmas.Http
import Verif.Lemmas.Reflect
import Verif.Lemmas.Response
import Verif.Props.Http
import Verif.Spec.Reflect
import Verif.Lemmas.Success
import Verif.Props.Request
import Verif.Props.Stored
import Verif.Props.Response
import Verif.Props.ResponseStored
import Verif.Props.ReflectDoc
import Verif.Props.ReflectWhole
import Verif.Props.Complete
import Verif.Props.Version
import Verif.Deprecated
import Verif.Spec.OpCtx
import Verif.Props.OpCtx
import Verif.Walk
import Verif.Spec.Walk
import Verif.Lemmas.Walk
import Verif.Props.Walk
import Verif.Union
import Verif.Spec.Union
import Verif.Props.Union
import Verif.Yaml
import Verif.Spec.Yaml
import Verif.Props.Yaml
import Verif.Codec.Basic
import Verif.Codec.Into
import Verif.Codec.Table30
import Verif.Codec.Table31
import Verif.Codec.Eqns
import Verif.Codec.Eq
import Verif.Codec.KernelRfl
import Verif.Spec.Codec
import Verif.Lemmas.Codec
import Verif.Props.Codec
import Verif.Props.CodecLimits
import Verif.Spec.RoundTrip
import Verif.Lemmas.RoundTrip
import Verif.Lemmas.RoundTripRead
import Verif.Lemmas.RoundTripStruct
import Verif.Lemmas.RoundTripPlain
import Verif.Lemmas.RoundTripUnion
import Verif.Lemmas.RoundTripMain
import Verif.Lemmas.RoundTripExcl
import Verif.Lemmas.RoundTripHTTP
import Verif.Lemmas.RoundTripSecurity
import Verif.Lemmas.RoundTripParameter
import Verif.Lemmas.RoundTripFacts
import Verif.Lemmas.WritableCheck
import Verif.Props.RoundTrip
import Verif.Props.UnionText
import Verif.Spec.Load
import Verif.Lemmas.Load
import Verif.Lemmas.LoadMain
import Verif.Lemmas.LoadFacts
import Verif.Lemmas.LoadSpecial
import Verif.Lemmas.LoadTables
import Verif.Props.Reload
import Verif.Spec.Order
import Verif.Lemmas.Order
import Verif.Props.Order
import Verif.Lemmas.Distinct
import Verif.Lemmas.Repeated
import Verif.Lemmas.Into
import Verif.Lemmas.IntoSome
import Verif.Lemmas.IntoParts
import Verif.Props.Distinct
import Verif.Spec.YamlDoc
import Verif.Lemmas.YamlDoc
import Verif.Props.YamlDoc
import Verif.Spec.Meta
import Verif.Spec.Meta30
import Verif.Lemmas.Accepts
import Verif.Lemmas.Meta
import Verif.Lemmas.MetaStruct
import Verif.Lemmas.MetaUnion
import Verif.Lemmas.MetaTable30
import Verif.Lemmas.MetaParts30
import Verif.Lemmas.MetaExcl30
import Verif.Lemmas.MetaComplete30
import Verif.Lemmas.MetaSound30
import Verif.Lemmas.MetaMeaning
import Verif.Lemmas.MetaWritten30
import Verif.Props.Meta30
import Verif.Spec.SpecSchema
import Verif.Props.SpecSchema
import Verif.Spec.Meta2020
import Verif.Spec.Meta31
import Verif.Spec.Meta31Read
import Verif.Lemmas.Meta31Meaning
import Verif.Lemmas.Meta31Facts
import Verif.Lemmas.Meta31Complete
import Verif.Lemmas.Meta31Exact
import Verif.Lemmas.Meta31Eval
import Verif.Props.Meta31
import Verif.Spec.Conform
import Verif.Spec.Publish30
import Verif.Spec.PublishSchema30
import Verif.Lemmas.Publish30
import Verif.Lemmas.PublishSchema30
import Verif.Spec.ConformInput
import Verif.Spec.PublishHistory30
import Verif.Lemmas.Conform
import Verif.Lemmas.PublishHistory30
import Verif.Props.Publish30
import Verif.Spec.Publish31
import Verif.Lemmas.PublishFill31
import Verif.Lemmas.PublishSch31
import Verif.Lemmas.Publish31
import Verif.Lemmas.PublishDoc31
import Verif.Lemmas.PublishHistory31
import Verif.Props.Publish31
import Verif.Spec.DocJson
import Verif.Lemmas.DocJson
import Verif.Lemmas.DocJson30
import Verif.Lemmas.DocJsonSchema30
import Verif.Lemmas.DocJson31
import Verif.Props.DocJson
import Verif.Seen
import Verif.Spec.Seen
import Verif.Lemmas.Seen
import Verif.Props.Seen
import Verif.Props.Builder
import Verif.Mem
import Verif.Spec.Mem
import Verif.Lemmas.Mem
import Verif.Props.Mem
import Verif.Spec.MemReflect
import Verif.Props.MemReflect
import Verif.Mem31
import Verif.Spec.Mem31
import Verif.Lemmas.Mem31
import Verif.Props.Mem31
import Verif.Props.Mem31Case
import Verif.Spec.MemReflect31
import Verif.Props.MemReflect31
import Verif.Props.MemReflect31Case
import Verif.Props.MemParams
import Verif.Spec.Members
import Verif.Lemmas.Members
import Verif.Props.Members
import Verif.Conformance.Basic
import Verif.Conformance.Entities30
import Verif.Conformance.Documents30
import Verif.Conformance.Documents31
import Verif.Conformance.Expected
import Verif.Conformance.Helper
import Verif.Conformance.Reflect
import Verif.Text
import Verif.Spec.Text
import Verif.Spec.TextValue
import Verif.Lemmas.Text
import Verif.Lemmas.TextValue
import Verif.Lemmas.TextWrite
import Verif.Lemmas.TextMarshal
import Verif.Lemmas.TextNumbers
import Verif.Props.Text
import Verif.TextYaml
import Verif.Lemmas.TextYaml
import Verif.Props.TextYaml
import Verif.Refl
import Verif.Spec.Refl
import Verif.Props.Refl
import Verif.Spec.PublishText
import Verif.Lemmas.PublishText
import Verif.Props.PublishText
import Verif.Spec.Again
import Verif.Lemmas.Again
import Verif.Lemmas.AgainMain
import Verif.Lemmas.ClearWritten
import Verif.Props.Again
import Verif.Lemmas.Settled
import Verif.Lemmas.Numbers
import Verif.Lemmas.Exact
import Verif.Props.Settles
import Verif.Sorted
import Verif.Spec.Sorted
import Verif.Lemmas.Sorted
import Verif.Lemmas.SortedEncode
import Verif.Lemmas.SortedWritable
import Verif.Lemmas.SortedBack
import Verif.Lemmas.SortedParts
import Verif.Lemmas.SortedRead
import Verif.Props.Sorted
import Verif.Spec.Names
import Verif.Spec.Into
import Verif.Props.Names
import Verif.Props.Into
import Verif.Schema30On
import Verif.Spec.On
import Verif.Props.On
import Verif.Spec.PathFields
import Verif.Props.PathFields
import Verif.Lemmas.Refs31Exact
import Verif.Props.Refs31Exact
import Verif.BodyCalls
import Verif.Spec.BodyCalls
import Verif.Props.BodyCalls
import Verif.Spec.Rest30
import Verif.Props.Rest30
import Verif.Spec.Closed
import Verif.Props.Closed
import Verif.TextInto
import Verif.Props.TextInto
