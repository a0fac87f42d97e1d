import Verif.Go

/-!
# Numbers, status codes and errors: pieces of Go's library used by the reflectors
-/

namespace Verif

/-- One decimal digit. -/
def digitChar (d : Nat) : Char := Char.ofNat (48 + d)

/-- The decimal digits of a natural number. -/
def natDigits (n : Nat) : List Char :=
  if h : n < 10 then [digitChar n] else natDigits (n / 10) ++ [digitChar (n % 10)]
termination_by n
decreasing_by omega

/-- `strconv.Itoa`. Used in `/repo/openapi3/reflect.go:668,681`, `/repo/openapi31/reflect.go:638,651`. -/
def itoa (n : Int) : String :=
  match n with
  | .ofNat k => String.ofList (natDigits k)
  | .negSucc k => String.ofList ('-' :: natDigits (k + 1))

/-- The table of `http.StatusText`. -/
def statusTexts : List (Int × String) := [
  (100, "Continue"), (101, "Switching Protocols"), (102, "Processing"), (103, "Early Hints"),
  (200, "OK"), (201, "Created"), (202, "Accepted"), (203, "Non-Authoritative Information"), (204, "No Content"),
  (205, "Reset Content"), (206, "Partial Content"), (207, "Multi-Status"), (208, "Already Reported"), (226, "IM Used"),
  (300, "Multiple Choices"), (301, "Moved Permanently"), (302, "Found"), (303, "See Other"), (304, "Not Modified"),
  (305, "Use Proxy"), (307, "Temporary Redirect"), (308, "Permanent Redirect"),
  (400, "Bad Request"), (401, "Unauthorized"), (402, "Payment Required"), (403, "Forbidden"), (404, "Not Found"),
  (405, "Method Not Allowed"), (406, "Not Acceptable"), (407, "Proxy Authentication Required"),
  (408, "Request Timeout"), (409, "Conflict"), (410, "Gone"), (411, "Length Required"),
  (412, "Precondition Failed"), (413, "Request Entity Too Large"), (414, "Request URI Too Long"),
  (415, "Unsupported Media Type"), (416, "Requested Range Not Satisfiable"), (417, "Expectation Failed"),
  (418, "I'm a teapot"), (421, "Misdirected Request"), (422, "Unprocessable Entity"), (423, "Locked"),
  (424, "Failed Dependency"), (425, "Too Early"), (426, "Upgrade Required"), (428, "Precondition Required"),
  (429, "Too Many Requests"), (431, "Request Header Fields Too Large"), (451, "Unavailable For Legal Reasons"),
  (500, "Internal Server Error"), (501, "Not Implemented"), (502, "Bad Gateway"), (503, "Service Unavailable"),
  (504, "Gateway Timeout"), (505, "HTTP Version Not Supported"), (506, "Variant Also Negotiates"),
  (507, "Insufficient Storage"), (508, "Loop Detected"), (510, "Not Extended"),
  (511, "Network Authentication Required")]

/-- `http.StatusText`: empty for an unknown code. Used in `/repo/openapi3/reflect.go:714`,
`/repo/openapi31/reflect.go:684`. -/
def statusText (n : Int) : String := (statusTexts.lookup n).getD ""

/-- `strings.Split(s, ";")[0]`. `/repo/openapi3/reflect.go:666`, `/repo/openapi31/reflect.go:636`. -/
def beforeSemicolon (s : String) : String := String.ofList (s.toList.takeWhile (· ≠ ';'))

/-- The body of the loop of `joinErrors`. `/repo/openapi3/reflect.go:101-105`, `/repo/openapi31/reflect.go:109-113`. -/
def joinStep (join : String) : Option String → String
  | some e => join ++ (", " ++ e)
  | none => join

/-- `joinErrors`: the messages, each after `", "`, without the first two characters; `none` is nil.
`/repo/openapi3/reflect.go:98-112`, `/repo/openapi31/reflect.go:106-120`. -/
def joinErrors (errs : List (Option String)) : Option String :=
  let join := errs.foldl joinStep ""
  if join ≠ "" then some (String.ofList (join.toList.drop 2)) else none

/-- The characters that `defNameSanitizer` keeps: `[a-zA-Z0-9.\-_]`. `/repo/internal/json_schema.go:27`,
`/repo/openapi3/reflect.go:574`, `/repo/openapi31/reflect.go:540`. -/
def defNameChar (c : Char) : Bool :=
  ('a' ≤ c && c ≤ 'z') || ('A' ≤ c && c ≤ 'Z') || ('0' ≤ c && c ≤ '9') || c == '.' || c == '-' || c == '_'

/-- `defNameSanitizer.ReplaceAllString(defaultDefName, "")`: every maximal run of other characters is
removed. `/repo/internal/json_schema.go:29-33`, `/repo/openapi3/reflect.go:576-580`,
`/repo/openapi31/reflect.go:542-546`. -/
def sanitizeDefName (s : String) : String := String.ofList (s.toList.filter defNameChar)

end Verif
