import Verif.Model.ResourceServer
import Verif.Model.Headers
import Verif.Model.RequestObject

/-!
The answers of the example resource server's middleware with their header
(`examples/resourceserver/middleware.go:143-204`); `ResourceServer.authorizer` is the same without it.
-/
namespace Verif.ResourceServer
open Verif.Headers (Header)

/-- What becomes of a request: an answer with a status and a header, or the next handler. -/
inductive Told
  | refused (status : Nat) (header : Header)
  | passed
deriving DecidableEq, Repr

/-- `http.Error`; the fields it deletes are not set here. -/
def httpError (status : Nat) (h : Header) : Told :=
  .refused status (Headers.set (Headers.set h g!"Content-Type" g!"text/plain; charset=utf-8") g!"X-Content-Type-Options" g!"nosniff")

/-- `w.Header().Set("WWW-Authenticate", …)` and `http.Error` with 401. -/
def challenge (text : Str) : Told := httpError 401 (Headers.set [] g!"WWW-Authenticate" text)

/-- middleware.go:170-202. -/
def authorizeH (intent : Str) (acrValues : List Str) (maxAuthAge : Nat) : Option Identity → Prog Told
  | none => .ret (challenge g!"Bearer error=\"invalid_token\", error_description=\"The access token provided is expired, revoked, malformed, or invalid for other reasons\", resource=\"http://127.0.0.1:8085\"")
  | some id => do
    if ← ageOk maxAuthAge id then
      if !acrOk acrValues id then
        return challenge (g!"Bearer error=\"insufficient_user_authentication\", error_description=\"A different authentication level is required\", resource=\"http://127.0.0.1:8085\"" ++
          (g!", acr_values=" ++ Headers.quote (Go.join g!" " acrValues)))
      else if !can id intent then return httpError 403 []
      else return .passed
    else
      return challenge (g!"Bearer error=\"insufficient_user_authentication\", error_description=\"More recent authentication is required\", resource=\"http://127.0.0.1:8085\"" ++
        (g!", max_age=" ++ RequestObject.decimal maxAuthAge))

/-- middleware.go:143-204 `Authorizer`. -/
def authorizerH (E : Env) (cli : Cli) (intent : Str) (acrValues : List Str) (maxAuthAge : Nat) (r : Req) : Prog Told :=
  if r.authorization = [] then
    .ret (challenge g!"Bearer error=\"invalid_request\", error_description=\"No access token provided in this request\", resource=\"http://127.0.0.1:8085\"")
  else if hasPrefix (Go.toLower r.authorization) g!"bearer" then
    authenticateWithBearer cli r >>= authorizeH intent acrValues maxAuthAge
  else if hasPrefix (Go.toLower r.authorization) g!"dpop" then
    authenticateWithDPoP E cli r >>= authorizeH intent acrValues maxAuthAge
  else .ret (httpError 400 [])

/-- The answer without its header. -/
def Told.plain : Told → Ans
  | .refused n _ => .status n
  | .passed => .passed

end Verif.ResourceServer
