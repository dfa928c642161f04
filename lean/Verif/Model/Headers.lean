import Verif.Model.Discovery
import Verif.Model.Url

/-!
The header of the HTTP answers: what the middlewares, the `respond` helpers and the handlers of
`examples/authorizationserver` set in `http.Header`, and `http.Redirect` and `http.Error` of
`net/http`. What `net/http` itself adds when it sends an answer (`Date`, `Content-Length`, a sniffed
`Content-Type`) is left out.
-/
namespace Verif.Headers
open Verif.Http

/-- `http.Header`, for fields with one value. -/
abbrev Header := List (Str × Str)

/-- `textproto.CanonicalMIMEHeaderKey` on the bytes of a field name. -/
def canonFrom (upper : Bool) : Str → Str
  | [] => []
  | c :: s =>
    (if upper ∧ 97 ≤ c ∧ c ≤ 122 then c - 32 else if ¬ upper ∧ 65 ≤ c ∧ c ≤ 90 then c + 32 else c) ::
      canonFrom (c = 45) s

def canon (s : Str) : Str := canonFrom true s

/-- `Header.Set`. -/
def set (h : Header) (k v : Str) : Header := (canon k, v) :: h.filter fun x => x.1 ≠ canon k

/-- `Header.Get`; `none` if the field is absent. -/
def get (h : Header) (k : Str) : Option Str := h.lookup (canon k)

/-- `strconv.Quote` (`%q`) on ASCII text; other bytes are written in hexadecimal, as it does for
those that are not UTF-8. -/
def quote (s : Str) : Str := 34 :: s.flatMap byte ++ [34]
where
  /-- one byte -/
  byte (b : UInt8) : Str :=
    if b = 34 ∨ b = 92 then [92, b]
    else if 32 ≤ b ∧ b < 127 then [b]
    else if b = 7 then g!"\\a" else if b = 8 then g!"\\b" else if b = 9 then g!"\\t"
    else if b = 10 then g!"\\n" else if b = 11 then g!"\\v" else if b = 12 then g!"\\f" else if b = 13 then g!"\\r"
    else [92, 120, hex (b / 16), hex (b % 16)]
  /-- a hexadecimal digit -/
  hex (n : UInt8) : UInt8 := if n < 10 then 48 + n else 87 + n

def json : Str := g!"application/json; charset=utf-8"

/-- respond/helpers.go:36-37 `WithError`; `host` is `r.URL.Host`. -/
def withErrorH (host : Str) (c : ErrCode) (h : Header) : Header :=
  set (set h g!"Content-Type" json) g!"WWW-Authenticate"
    (g!"Bearer realm=" ++ quote host ++ g!", error=" ++ quote (Discovery.codeText c) ++
      g!", error_description=" ++ quote (Discovery.description c))

/-- respond/helpers.go:53 `WithJSON`. -/
def withJSONH (h : Header) : Header := set h g!"Content-Type" json

/-- `http.Redirect`: a `Content-Type` is set for GET requests if there is none. -/
def redirectH (isGet : Bool) (loc : Str) (h : Header) : Header :=
  let had := (get h g!"Content-Type").isSome
  let h := set h g!"Location" loc
  if ¬ had ∧ isGet then set h g!"Content-Type" g!"text/html; charset=utf-8" else h

/-- The digest in authorization.go:242. -/
def scriptDigest : Str :=
  g!"sha384-ZGMxYzUyZTk2ZGY3OGNjZDNlMGFiMTI1M2RmMmNiNmY4MzgyZjY3NDcyZDc1M2U4YTRmNTEzYzc0NTE4M2FiOGZkMWQ1YzFhMjA2MDI2ZTNjOWMyOWEyYzY2YTRhY2Y2Cg=="

/-- What does not come from the answer: `r.URL.Host`, whether the method is GET, and the nonce that
authorization.go:237 draws. -/
structure Ctx where
  host : Str := []
  isGet : Bool := false
  nonce : Str := []

/-- authorization.go:136-254: the header of an authorization answer. The request path of the
endpoint is `/authorize`, its directory `/`. For the delivery `query`, which carries other parameters
too, only `code` is written here; it is not reached (`C68_violated`). -/
def authorizationH (x : Ctx) (uri : Str) (content : Str) : Delivery → Header → Header
  | .query, h => redirectH x.isGet ((Url.location g!"/" uri [(g!"code", content)]).getD []) h
  | .queryJWT, h => redirectH x.isGet ((Url.location g!"/" uri [(g!"response", content)]).getD []) h
  | .fragmentJWT, h => redirectH x.isGet ((Url.fragmentLocation g!"/" uri [(g!"response", content)]).getD []) h
  | .formPostJWT, h =>
    set (set (set h g!"Cache-Control" g!"no-cache, no-store") g!"Pragma" g!"no-cache") g!"Content-Security-Policy"
      (g!"script-src 'self' '" ++ scriptDigest ++ g!"' 'nonce-" ++ x.nonce ++ g!"';")

/-- What the handlers and `ClientAuthentication` set for an answer. An error is written with
`WithError`, except that of par.go:65 (status 200), and other JSON bodies with `WithJSON`. The empty
body with status 405 is the `http.Error` of par.go:51. -/
def written (x : Ctx) (a : Http.Resp) (h : Header) : Header :=
  match a.body with
  | .empty =>
    if a.status = 405 then
      set (set h g!"Content-Type" g!"text/plain; charset=utf-8") g!"X-Content-Type-Options" g!"nosniff"
    else h
  | .error c => if a.status = 200 then h else withErrorH x.host c h
  | .tokens _ | .introspection _ | .device .. | .par .. => withJSONH h
  | .authorization uri d content => authorizationH x uri content d h
  | .form => h

/-- middleware/secure_headers.go:30-43 `SecurityHaders`. -/
def secure (h : Header) : Header :=
  [(g!"X-Frame-Options", g!"DENY"), (g!"X-XSS-Protection", g!"1; mode=block"), (g!"X-Content-Type-Options", g!"nosniff"),
    (g!"Content-Security-Policy", g!"default-src 'none'"), (g!"Referrer-Policy", g!"no-referrer"), (g!"X-Robots-Tag", g!"noarchive"),
    (g!"Cache-Control", g!"private, no-cache, must-revalidate")].foldl (fun h x => set h x.1 x.2) h

/-- An answer with its header. -/
structure Reply where
  header : Header
  resp : Http.Resp
deriving DecidableEq, Repr

/-- A handler that writes to a response writer whose header is already `h`. -/
def write (x : Ctx) (h : Header) (p : Prog Http.Resp) : Prog Reply := p >>= fun a => .ret ⟨written x a h, a⟩

/-- middleware/basic_auth.go:41-71 `BasicAuthentication`. -/
def basicAuthH (r : Http.Req) (h : Header) (k : Str → Header → Prog Reply) : Prog Reply :=
  match r.basic with
  | none => refuse
  | some (u, p) =>
    if (Go.trimSpace u).length < 1 ∨ (Go.trimSpace p).length < 1 then refuse
    else if u ≠ g!"hello" ∨ p ≠ g!"world" then refuse
    else k u h
where
  /-- lines 42-45 -/
  refuse : Prog Reply := .ret ⟨set h g!"WWW-Authenticate" g!"Basic realm=Restricted", ⟨401, .empty⟩⟩

/-- What the answer to a request needs besides it. -/
def ctx (host nonce : Str) (r : Http.Req) : Ctx := ⟨host, r.method = g!"GET", nonce⟩

/-- main.go:71-77 with middleware/adapter.go: the last adapter is the outermost one, so the security
headers are set after the user is authenticated. -/
def serveH (S : Server) (host nonce : Str) (route : Route) (r : Http.Req) : Prog Reply :=
  let x := ctx host nonce r
  match route with
  | .authorize => basicAuthH r [] fun sub h => write x (secure h) (authorizeHandler S r sub)
  | .device => basicAuthH r [] fun sub h => write x (secure h) (deviceHandler S r sub)
  | route => write x [] (serve S route r)

end Verif.Headers
