import Verif.Reflect

/-!
# Model of `/repo/openapi3/reflect_deprecated.go` and of the conversions in `/repo/openapi3/reflect.go`
-/

namespace Verif.V30

variable {S : Type}

/-- `OperationContext`, the old one. `/repo/openapi3/reflect_deprecated.go:87-106`. The pointer to the operation
is the operation itself; the theorems say what becomes of it. -/
structure OldCtx (S : Type) where
  operation : Operation S := {}
  input : Given S := .value none
  httpMethod : String := ""
  reqQuery : GoMap String := []
  reqPath : GoMap String := []
  reqCookie : GoMap String := []
  reqHeader : GoMap String := []
  reqFormData : GoMap String := []
  output : Given S := .value none
  httpStatus : Int := 0
  respContentType : String := ""
  respHeader : GoMap String := []
  processingResponse : Bool := false
  processingIn : String := ""

/-- The option for the request unit. `/repo/openapi3/reflect.go:209-215`. -/
def OldCtx.reqOption (c : OldCtx S) : ContentOption S := fun cu =>
  ((((cu.setFieldMapping "header" c.reqHeader).setFieldMapping "query" c.reqQuery).setFieldMapping "cookie"
    c.reqCookie).setFieldMapping "path" c.reqPath).setFieldMapping "formData" c.reqFormData

/-- The option for the response unit. `/repo/openapi3/reflect.go:219-223`. -/
def OldCtx.respOption (c : OldCtx S) : ContentOption S := fun cu =>
  ({ cu with contentType := c.respContentType, httpStatus := c.httpStatus } : ContentUnit S).setFieldMapping "header" c.respHeader

/-- `toOpCtx`. `/repo/openapi3/reflect.go:205-233`. -/
def toOpCtx (c : OldCtx S) : OpCtx S :=
  let oc : OpCtx S := { method := c.httpMethod, path := "", op := c.operation }
  let oc := oc.addReqStructure c.input [c.reqOption]
  let oc := oc.addRespStructure c.output [c.respOption]
  let oc := oc.setProcessingIn c.processingIn
  oc.setIsProcessingResponse c.processingResponse

/-- The part of `fromOpCtx` for the request. `/repo/openapi3/reflect.go:240-249`. -/
def fromReq (c : OldCtx S) (req : List (ContentUnit S)) : OldCtx S :=
  match req with
  | [] => c
  | cu :: _ =>
    { c with
      input := .value cu.structure_
      reqQuery := cu.fieldMapping "query"
      reqPath := cu.fieldMapping "path"
      reqHeader := cu.fieldMapping "header"
      reqFormData := cu.fieldMapping "formData"
      reqCookie := cu.fieldMapping "cookie" }

/-- The part of `fromOpCtx` for the response. `/repo/openapi3/reflect.go:251-258`. -/
def fromResp (c : OldCtx S) (resp : List (ContentUnit S)) : OldCtx S :=
  match resp with
  | [] => c
  | cu :: _ =>
    { c with
      output := .value cu.structure_
      respHeader := cu.fieldMapping "header"
      respContentType := cu.contentType
      httpStatus := cu.httpStatus }

/-- `fromOpCtx`. `/repo/openapi3/reflect.go:235-264`. -/
def fromOpCtx (oc : OpCtx S) : OldCtx S :=
  let c : OldCtx S := {}
  let c := { c with httpMethod := oc.method }
  let c := fromReq c oc.req
  let c := fromResp c oc.resp
  { c with processingResponse := oc.isProcessingResponse, processingIn := oc.processingIn }

/-- `SetupRequest`: component schemas and operation afterwards. `/repo/openapi3/reflect_deprecated.go:11-13`. -/
def oldSetupRequest (v : Ver S) (env : Env S) (schemas : GoMap S) (c : OldCtx S) : ReqState S × Out :=
  setupRequest v env (toOpCtx c).method (toOpCtx c).req ⟨schemas, c.operation⟩

/-- `SetRequest`. `/repo/openapi3/reflect_deprecated.go:18-24`. -/
def setRequest (v : Ver S) (env : Env S) (schemas : GoMap S) (o : Operation S) (input : Given S) (method : String) :
    ReqState S × Out :=
  oldSetupRequest v env schemas { operation := o, input := input, httpMethod := method }

/-- `SetupResponse`. `/repo/openapi3/reflect_deprecated.go:70-72`. -/
def oldSetupResponse (v : Ver S) (env : Env S) (schemas : GoMap S) (c : OldCtx S) : ReqState S × Out :=
  setupResponse v env (toOpCtx c).method (toOpCtx c).resp ⟨schemas, c.operation⟩

/-- `SetStringResponse`. `/repo/openapi3/reflect_deprecated.go:48-54`. -/
def setStringResponse (v : Ver S) (env : Env S) (schemas : GoMap S) (o : Operation S) (status : Int) (ct : String) :
    ReqState S × Out :=
  oldSetupResponse v env schemas { operation := o, httpStatus := status, respContentType := ct }

/-- `SetJSONResponse`. `/repo/openapi3/reflect_deprecated.go:59-65`. -/
def setJSONResponse (v : Ver S) (env : Env S) (schemas : GoMap S) (o : Operation S) (output : Given S) (status : Int) :
    ReqState S × Out :=
  oldSetupResponse v env schemas { operation := o, output := output, httpStatus := status }

end Verif.V30
