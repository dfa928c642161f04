import Verif.Model.Http
import Verif.Model.Url
import Verif.Model.Client
import Verif.Go.Base64Dec

/-!
Requests as they are sent: the texts of the query, of the body and of the header fields, and how
`net/http` (Go 1.22) and `mime` read them. Multipart bodies, which `FormValue` reads when nothing called
`ParseForm` before, carry no parameters here, and the limit of 10 MB on bodies is left out.
-/
namespace Verif.Raw

/-- What is sent, as far as the handlers read it. -/
structure Raw where
  method : Str
  /-- behind the question mark of the target -/
  rawQuery : Str := []
  contentType : Str := []
  body : Str := []
  dpop : Str := []
  authorization : Str := []
  target : DPoP.Target := {}
deriving DecidableEq, Repr

/-- `mime.ParseMediaType`: the type without its parameters, in lower case. -/
def mediaType (v : Str) : Str := Go.trimSpace ((v.takeWhile (· ≠ 59)).map Url.lowerByte)

/-- `parsePostForm`. -/
def Raw.postForm (w : Raw) : List (Str × Str) :=
  if (w.method = g!"POST" ∨ w.method = g!"PUT" ∨ w.method = g!"PATCH") ∧
      mediaType w.contentType = g!"application/x-www-form-urlencoded" then Url.parseQuery w.body
  else []

/-- The 6-bit value of a byte of the alphabet of `base64.StdEncoding`. -/
def stdVal (b : UInt8) : Option Nat :=
  if b = 43 then some 62 else if b = 47 then some 63 else if b = 45 ∨ b = 95 then none else Go.b64Val b

/-- The text without padding; a quantum has four characters. -/
def unpad (s : Str) : Option Str :=
  if s.length % 4 ≠ 0 then none
  else if g!"==" <:+ s then some (s.take (s.length - 2))
  else if g!"=" <:+ s then some (s.take (s.length - 1))
  else some s

/-- `base64.StdEncoding.DecodeString`; `none` is the error. -/
def stdDecode (s : Str) : Option Str :=
  (unpad (Go.stripLines s)).bind fun t => (t.mapM stdVal).bind Go.b64Groups

/-- `parseBasicAuth`. -/
def basicOf (auth : Str) : Option (Str × Str) :=
  if auth.length < 6 ∨ (auth.take 6).map Url.lowerByte ≠ g!"basic " then none
  else match stdDecode (auth.drop 6) with
    | none => none
    | some c => if 58 ∈ c then some (Url.cut 58 c) else none

/-- What the handlers read of it. -/
def Raw.req (w : Raw) : Http.Req where
  method := w.method
  query := Url.first (Url.parseQuery w.rawQuery)
  post := Url.first w.postForm
  dpop := w.dpop
  target := w.target
  basic := basicOf w.authorization

/-- client/http.go:326-345, 376-395: a form posted by the client library. -/
def posted (params : List (Str × Str)) (url : DPoP.Target) : Raw where
  method := g!"POST"
  contentType := g!"application/x-www-form-urlencoded"
  body := Url.encode params
  target := url

/-- client/http.go:319-339 `ClientCredentials`. -/
def credentials (assertion : Str) (url : DPoP.Target) : Raw :=
  posted [(g!"grant_type", g!"client_credentials"), (g!"client_assertion", assertion),
    (g!"client_assertion_type", ClientAuth.typeBearer)] url

/-- client/http.go:369-389 `Introspect`. -/
def introspect (assertion token : Str) (url : DPoP.Target) : Raw :=
  posted [(g!"token", token), (g!"client_assertion", assertion), (g!"client_assertion_type", ClientAuth.typeBearer)] url

/-- attestationclient/main.go:98-115 `getToken`. -/
def attested (att pop : Str) (url : DPoP.Target) : Raw :=
  posted [(g!"grant_type", g!"client_credentials"), (g!"client_id", Client.attestedId), (g!"client_assertion", att ++ g!"~" ++ pop),
    (g!"client_assertion_type", ClientAuth.typeAttestation)] url

/-- `base64.StdEncoding.EncodeToString`. -/
def stdEncode (s : Str) : Str :=
  let t := (Go.b64 s).map fun b => if b = 45 then 43 else if b = 95 then 47 else b
  t ++ List.replicate ((4 - t.length % 4) % 4) 61

/-- `Request.SetBasicAuth`. -/
def basicAuth (user pass : Str) : Str := g!"Basic " ++ stdEncode (user ++ 58 :: pass)

end Verif.Raw
