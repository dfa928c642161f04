import Verif.Model.DPoP
import Verif.Model.ClientAuth
import Verif.Model.StringArray
import Verif.Model.Lib

/-!
The example resource server's middleware (`examples/resourceserver/middleware.go`)
and the part of the client library it calls (`client/http.go` `Introspect`).

The client is an interface there (`client.Client`), so it is a parameter here: an
assertion or an error, and an answer to the introspection of a token, which may be
an error or a crash.
-/
namespace Verif.ResourceServer
open Verif.Jose (Out)
open Verif.ClientAuth (cut)

/-- What the middleware reads of `*http.Request`. -/
structure Req where
  method : Str
  /-- where the request was sent -/
  target : DPoP.Target
  /-- the `Authorization` header, empty if absent -/
  authorization : Str := []
  /-- the `DPoP` header, empty if absent -/
  dpop : Str := []

/-- `dpop.CleanURL(r)`. -/
def Req.url (r : Req) : Str := r.target.clean

/-- The two methods of `client.Client` the middleware uses. -/
structure Cli where
  assertion : Option Str
  /-- assertion and token -/
  introspect : Str → Str → Out Token

/-- middleware.go:21-26 `identity`. -/
structure Identity where
  subject : Str
  clientId : Str
  authTime : Option Nat
  acr : Option Str
deriving DecidableEq, Repr

/-- What becomes of a request: answered by the middleware, or handed to the next handler. -/
inductive Ans
  | status (code : Nat)
  | passed
deriving DecidableEq, Repr

/-- middleware.go:28-37 `permissions`. -/
def permissions (intent : Str) : Option (List (Str × List Str)) :=
  if intent = g!"timestamp:read" then
    some [(g!"t8p9duw4n2klximkv3kagaud796ul67g", [[]]), (g!"attestation-client", [[]])]
  else none

/-- middleware.go:39-53 `can`. -/
def can (id : Identity) (intent : Str) : Bool :=
  match permissions intent with
  | none => false
  | some clients =>
    match clients.lookup id.clientId with
    | none => false
    | some subjects => StringArray.contains subjects id.subject

/-- The identity returned at middleware.go:84-89 and 135-140; `t.Metadata` is
dereferenced. -/
def identity (t : Token) : Out Identity :=
  match t.metadata with
  | none => .panic
  | some m => .ok { subject := m.subject, clientId := m.clientId, authTime := m.authTime, acr := m.acr }

/-- A pure outcome inside a program. -/
def lift {α : Type} : Out α → Prog (Option α)
  | .ok a => .ret (some a)
  | .err => .ret none
  | .panic => .panic

/-- middleware.go:72-89: the token is asked for and has to be active and unbound. -/
def bearerToken (cli : Cli) (assertion tok : Str) : Out Identity :=
  match cli.introspect assertion tok with
  | .panic => .panic
  | .err => .err
  | .ok t =>
    if t.status ≠ .active then .err
    else if t.confirmation.isSome then .err
    else identity t

/-- middleware.go:57-90 `authenticateWithBearer`; `parts[1]` is read after the
assertion is there. -/
def authenticateWithBearer (cli : Cli) (r : Req) : Prog (Option Identity) :=
  if ¬ Go.equalFold (cut 32 r.authorization).1 g!"bearer" then .ret none
  else match cli.assertion with
    | none => .ret none
    | some a =>
      match (cut 32 r.authorization).2 with
      | none => .panic
      | some tok => lift (bearerToken cli a tok)

/-- middleware.go:118-140: the token has to be active and bound to the key of the proof. -/
def dpopToken (cli : Cli) (assertion tok thumb : Str) : Out Identity :=
  match cli.introspect assertion tok with
  | .panic => .panic
  | .err => .err
  | .ok t =>
    if t.status ≠ .active then .err
    else match t.confirmation with
      | none => .err
      | some c => if Lib.secureCompare thumb c.jkt then identity t else .err

/-- middleware.go:92-141 `authenticateWithDPoP`. -/
def authenticateWithDPoP (E : Env) (cli : Cli) (r : Req) : Prog (Option Identity) :=
  if ¬ Go.equalFold (cut 32 r.authorization).1 g!"dpop" then .ret none
  else match (cut 32 r.authorization).2 with
    | none => .panic
    | some tok => do
      match ← DPoP.verify E { htm := r.method, htu := r.url, proof := r.dpop, tokenValue := some tok } with
      | none => return none
      | some thumb =>
        match cli.assertion with
        | none => return none
        | some a => lift (dpopToken cli a tok thumb)

/-- middleware.go:179: `uint64(time.Now().Unix())-*id.AuthTime > maxAuthAge` in
64-bit arithmetic. -/
def tooLongAgo (now authTime maxAuthAge : Nat) : Bool :=
  UInt64.ofNat maxAuthAge < UInt64.ofNat (DPoP.unix now) - UInt64.ofNat authTime

/-- middleware.go:178-184. -/
def ageOk (maxAuthAge : Nat) (id : Identity) : Prog Bool :=
  match id.authTime with
  | none => .ret true
  | some t => if maxAuthAge > 0 then do return !tooLongAgo (← .call .now) t maxAuthAge else .ret true

/-- middleware.go:185-191. -/
def acrOk (acrValues : List Str) (id : Identity) : Bool :=
  match id.acr with
  | none => true
  | some a => if acrValues.length > 0 then StringArray.contains acrValues a else true

/-- middleware.go:170-202: what follows the authentication. -/
def authorize (intent : Str) (acrValues : List Str) (maxAuthAge : Nat) : Option Identity → Prog Ans
  | none => .ret (.status 401)
  | some id => do
    if ← ageOk maxAuthAge id then
      if !acrOk acrValues id then return .status 401
      else if !can id intent then return .status 403
      else return .passed
    else return .status 401

/-- `strings.HasPrefix`. -/
def hasPrefix (s p : Str) : Bool := p.isPrefixOf s

/-- middleware.go:143-204 `Authorizer`. -/
def authorizer (E : Env) (cli : Cli) (intent : Str) (acrValues : List Str) (maxAuthAge : Nat) (r : Req) : Prog Ans :=
  if r.authorization = [] then .ret (.status 401)
  else if hasPrefix (Go.toLower r.authorization) g!"bearer" then
    authenticateWithBearer cli r >>= authorize intent acrValues maxAuthAge
  else if hasPrefix (Go.toLower r.authorization) g!"dpop" then
    authenticateWithDPoP E cli r >>= authorize intent acrValues maxAuthAge
  else .ret (.status 400)

/-! ### The shipped client -/

/-- The authorization server's answer as the client library sees it: no answer, or a
status and whether the body is (within the size limit) a JSON value. -/
structure Reply where
  status : Nat
  json : Bool

/-- client/http.go:368-424 `Introspect` of the shipped client.

The answer is decoded into `jsonTokenIntrospectionResponse` (client/claims.go:63-67), which
embeds `*tokenv1.TokenMeta`. That type has an `UnmarshalJSON` method
(api/oidc/token/v1/token.pb.json.go:20-24), which Go promotes to the embedding
struct. So `encoding/json` hands every syntactically valid value to it, with the
embedded pointer, which is nil in a new `jsonTokenIntrospectionResponse`, as the
receiver; `protojson` resets the message first (`*x = TokenMeta{}`,
token.pb.go:187), which is a nil dereference. -/
def httpIntrospect (url : Bool) (answer : Str → Str → Option Reply) (assertion tok : Str) : Out Token :=
  if ¬ url then .err
  else match answer assertion tok with
    | none => .err
    | some r => if r.status ≠ 200 then .err else if r.json then .panic else .err

/-- The shipped client as the middleware sees it. -/
def httpClient (assertion : Option Str) (url : Bool) (answer : Str → Str → Option Reply) : Cli where
  assertion := assertion
  introspect := httpIntrospect url answer

end Verif.ResourceServer
