import Verif.Spec30
import Verif.Spec31
import Verif.Spec.OpCtx

/-!
# Specification vocabulary for the general information of a document
-/

namespace Verif
variable {S : Type}

/-- A call that changes the general information of a document. -/
inductive InfoCall where
  | title (t : String)
  | description (d : String)
  | version (v : String)

/-- A call on a document: one of the above, a security scheme, or an operation. -/
inductive DocCall (S : Type) where
  | info (c : InfoCall)
  | basicAuth (name description : String)
  | apiKey (name fieldName fieldIn description : String)
  | bearer (name format description : String)
  | add (method path : String) (op : Operation S)
  | setup (method path : String) (fs : List (Setup S))

/-- What the call sets. -/
def DocCall.title? : DocCall S → Option String | .info (.title t) => some t | _ => none
def DocCall.description? : DocCall S → Option String | .info (.description d) => some d | _ => none
def DocCall.version? : DocCall S → Option String | .info (.version v) => some v | _ => none

namespace V30

/-- The call on a 3.0 document. -/
def runInfo (s : Spec S) : InfoCall → Spec S
  | .title t => s.setTitle t
  | .description d => s.setDescription d
  | .version v => s.setVersion v

/-- The call on a 3.0 document. -/
def runDoc (s : Spec S) : DocCall S → Spec S
  | .info c => runInfo s c
  | .basicAuth n d => s.setHTTPBasicSecurity n d
  | .apiKey n f i d => s.setAPIKeySecurity n f i d
  | .bearer n f d => s.setHTTPBearerTokenSecurity n f d
  | .add m p op => (s.addOperation m p op).1
  | .setup m p fs => (s.setupOperation m p fs).1

end V30

namespace V31

/-- The call on a 3.1 document. -/
def runInfo (s : Spec S) : InfoCall → Spec S
  | .title t => s.setTitle t
  | .description d => s.setDescription d
  | .version v => s.setVersion v

/-- The call on a 3.1 document. -/
def runDoc (s : Spec S) : DocCall S → Spec S
  | .info c => runInfo s c
  | .basicAuth n d => s.setHTTPBasicSecurity n d
  | .apiKey n f i d => s.setAPIKeySecurity n f i d
  | .bearer n f d => s.setHTTPBearerTokenSecurity n f d
  | .add m p op => (s.addOperation m p op).1
  | .setup m p fs => (s.setupOperation m p fs).1

end V31
end Verif
