import Verif.Model.System
import Verif.Model.ClientAuth
import Verif.Model.TokenGen
import Verif.Model.Sign
import Verif.Model.Lib

/-!
The HTTP endpoints of the example server (`examples/authorizationserver`): the
middlewares, the handlers and their wiring (`main.go`).

A handler is a program over the same interface calls as the services. `net/http` turns a
crash of a handler into an aborted connection; it is `Prog.panic` here. The parsing of
requests by `net/http` is not modelled: a request is given by the first values of its query
and body parameters.
-/
namespace Verif.Http
open Verif.Oidc
open Verif.Device (unix)

/-- What the handlers read of `*http.Request`. -/
structure Req where
  method : Str
  /-- first values of the query parameters -/
  query : Str → Option Str := fun _ => none
  /-- first values of the body parameters -/
  post : Str → Option Str := fun _ => none
  /-- the `DPoP` header, empty if absent -/
  dpop : Str := []
  /-- where the request was sent -/
  target : DPoP.Target := {}
  /-- `r.BasicAuth()` -/
  basic : Option (Str × Str) := none

/-- `dpop.CleanURL(r)`. -/
def Req.url (r : Req) : Str := r.target.clean
/-- `r.URL.Query().Get(k)`. -/
def Req.get (r : Req) (k : Str) : Str := (r.query k).getD []
/-- `r.PostFormValue(k)`. -/
def Req.postValue (r : Req) (k : Str) : Str := (r.post k).getD []
/-- `r.FormValue(k)`: the body takes precedence over the query. -/
def Req.formValue (r : Req) (k : Str) : Str :=
  match r.post k with
  | some v => v
  | none => r.get k

/-- handlers/token.go:40-46. -/
structure TokenBody where
  accessToken : Str
  expiresIn : Nat
  tokenType : Str
  refreshToken : Str
  scope : Str
deriving DecidableEq, Repr

/-- What an introspection answer says of an active token
(handlers/token_introspection.go:70-97). -/
structure ActiveBody where
  scope : Str
  clientId : Str
  exp : Nat
  iat : Nat
  nbf : Nat
  sub : Str
  aud : Str
  iss : Str
  jti : Str
  tokenType : Str
  cnf : Option Cnf
  acr : Option Str
  authTime : Option Nat
deriving DecidableEq, Repr

/-- How the authorization response travels to the client. -/
inductive Delivery where
  /-- redirection with the parameters `code`, `iss` and `state` -/
  | query
  /-- redirection with the parameter `response` in the query -/
  | queryJWT
  /-- redirection with the parameter `response` in the fragment -/
  | fragmentJWT
  /-- an HTML form posting `response` -/
  | formPostJWT
deriving DecidableEq, Repr

/-- The bodies the handlers write. -/
inductive Body where
  | empty
  | error (c : ErrCode)
  | tokens (b : TokenBody)
  | introspection (b : Option ActiveBody)
  | device (deviceCode userCode verificationUri : Str) (expiresIn interval : Nat)
  | par (issuer requestUri : Str) (expiresIn : Nat)
  /-- `content` is the response token, or the code for `Delivery.query` -/
  | authorization (redirectUri : Str) (d : Delivery) (content : Str)
  | form
deriving DecidableEq, Repr

structure Resp where
  status : Nat
  body : Body
deriving DecidableEq, Repr

/-- The server: its issuer, the modelled libraries and the codecs it uses. -/
structure Server where
  E : Env
  issuer : Str
  /-- parsers of client authentication -/
  P : ClientAuth.Parsers
  /-- `jwt.ParseSigned` for request objects -/
  requestParse : Str → Option Jose.Jws
  /-- JSON decoding of request objects (sdk/jwsreq/decoder.go:50-66) -/
  requestDec : Str → Option AuthzRequest
  /-- the authorization response signer -/
  jarmSer : Sign.JarmClaims → Option Str
  /-- the pairwise encoder: keyed hash and salt -/
  pairHash : Str → Str → Str
  pairSalt : Str

/-- respond/helpers.go:29-44 `WithError` with an error that is built on the spot. -/
def err (status : Nat) (c : ErrCode) : Prog Resp := .ret ⟨status, .error c⟩

/-- `WithError` with the error of an answer: a nil error is dereferenced (line 37). -/
def withError (status : Nat) : Option OErr → Prog Resp
  | none => .panic
  | some e => .ret ⟨status, .error e.code⟩

/-! ### Middlewares -/

/-- middleware/client_auth.go:84-97: what follows the choice of an authenticator. -/
def afterAuth (h : Option Client → Prog Resp) (a : ClientAuth.AuthResult) : Prog Resp :=
  if a.goErr then err 401 .invalidClient
  else match a.resp with
    | none => .panic
    | some resp => h resp.client

/-- middleware/client_auth.go:42-103 `ClientAuthentication`; the continuation gets the
client injected in the context. -/
def clientAuth (S : Server) (r : Req) (h : Option Client → Prog Resp) : Prog Resp :=
  if r.get g!"client_id" ≠ [] then do
    match ← Prog.call (.clientsGet (r.get g!"client_id")) with
    | .error _ => err 401 .invalidClient
    | .ok none => Prog.panic
    | .ok (some client) => if client.clientType = .pub then h (some client) else err 401 .invalidClient
  else
    let ty := r.postValue g!"client_assertion_type"
    let req : ClientAuth.AuthReq := ⟨some ty, some (r.postValue g!"client_assertion")⟩
    if ty = ClientAuth.typeBearer then ClientAuth.privateKeyJwt S.P (some req) >>= afterAuth h
    else if ty = ClientAuth.typeAttestation then ClientAuth.clientAttestation S.P (some req) >>= afterAuth h
    else err 401 .invalidRequest

/-- middleware/basic_auth.go:41-71 `BasicAuthentication`. -/
def basicAuth (r : Req) (h : Str → Prog Resp) : Prog Resp :=
  match r.basic with
  | none => .ret ⟨401, .empty⟩
  | some (u, p) =>
    if (Go.trimSpace u).length < 1 ∨ (Go.trimSpace p).length < 1 then .ret ⟨401, .empty⟩
    else if u ≠ g!"hello" ∨ p ≠ g!"world" then .ret ⟨401, .empty⟩
    else h u

/-! ### /token -/

/-- handlers/token.go:48-86 `messageBuilder`: the grant. -/
def grantOf (r : Req) : Option Grant :=
  let ty := r.formValue g!"grant_type"
  if ty = grantAuthorizationCode then
    some (.authorizationCode ⟨r.formValue g!"code", r.formValue g!"redirect_uri", r.formValue g!"code_verifier"⟩)
  else if ty = grantClientCredentials then some .clientCredentials
  else if ty = grantDeviceCode then some (.deviceCode (r.formValue g!"device_code"))
  else if ty = grantRefreshToken then some (.refreshToken (r.formValue g!"refresh_token"))
  else none

/-- handlers/metadata.go:52-58: the grants advertised in the server metadata. -/
def grantTypesSupported : List Str :=
  [grantClientCredentials, grantAuthorizationCode, grantRefreshToken, grantDeviceCode, grantTokenExchange]

/-- The message of a token request, with the confirmation of a verified proof. -/
def tokenMsg (S : Server) (r : Req) (client : Client) (cnf : Option Cnf) : TokenReq :=
  { issuer := S.issuer, client := some client, grantType := r.formValue g!"grant_type", tokenConfirmation := cnf,
    grant := grantOf r }

/-- handlers/token.go:129-159: the answer. `res.AccessToken` and its metadata are
dereferenced; the difference is a uint64. -/
def tokenAnswer (dpop : Bool) (res : TokenResp) : Prog Resp :=
  if res.goErr then withError 400 res.error
  else match res.accessToken with
    | none => .panic
    | some at_ =>
      match at_.metadata with
      | none => .panic
      | some md => do
        let now ← Prog.call .now
        return ⟨200, .tokens {
          accessToken := at_.value
          expiresIn := (md.expiresAt + 2 ^ 64 - unix now % 2 ^ 64) % 2 ^ 64
          tokenType := if dpop then g!"DPoP" else g!"Bearer"
          scope := md.scope
          refreshToken := (res.refreshToken.map (·.value)).getD [] }⟩

/-- handlers/token.go:88-159. -/
def tokenHandler (S : Server) (r : Req) (client : Option Client) : Prog Resp :=
  if r.method ≠ g!"POST" then err 405 .invalidRequest
  else match client with
    | none => err 401 .invalidClient
    | some client =>
      if r.dpop = [] ∧ client.dpopBoundAccessTokens then err 400 .invalidRequest
      else if r.dpop = [] then TokenSvc.token S.E (some (tokenMsg S r client none)) >>= tokenAnswer false
      else do
        match ← DPoP.verify S.E { htm := r.method, htu := r.url, proof := r.dpop } with
        | none => err 400 .invalidDPoPProof
        | some jkt => TokenSvc.token S.E (some (tokenMsg S r client (some ⟨jkt⟩))) >>= tokenAnswer true

/-! ### /token/introspect and /token/revoke -/

/-- handlers/token_introspection.go:70-97. -/
def activeBody (t : Token) (md : TokenMeta) : ActiveBody :=
  { scope := md.scope, clientId := md.clientId, exp := md.expiresAt, iat := md.issuedAt, nbf := md.notBefore,
    sub := md.subject, aud := md.audience, iss := md.issuer, jti := t.tokenId,
    tokenType := if t.confirmation.isSome then g!"DPoP" else g!"Bearer", cnf := t.confirmation,
    acr := md.acr, authTime := md.authTime }

/-- handlers/token_introspection.go:34-101. -/
def introspectHandler (S : Server) (r : Req) (client : Option Client) : Prog Resp :=
  match client with
  | none => err 401 .invalidClient
  | some client => do
    let res ← TokenSvc.introspect S.E (some { issuer := S.issuer, client := some client, token := r.formValue g!"token" })
    if res.goErr then withError 400 res.error
    else match res.token with
      | none => Prog.panic
      | some t =>
        if t.status = .active then
          if ← TokenGen.isUsable (some t) then
            match t.metadata with
            | none => Prog.panic
            | some md => return ⟨200, .introspection (some (activeBody t md))⟩
          else return ⟨200, .introspection none⟩
        else return ⟨200, .introspection none⟩

/-- handlers/token_revocation.go:33-61. -/
def revokeHandler (S : Server) (r : Req) (client : Option Client) : Prog Resp :=
  match client with
  | none => err 401 .invalidClient
  | some client => do
    let res ← TokenSvc.revoke S.E (some { issuer := S.issuer, client := some client, token := r.formValue g!"token" })
    if res.goErr then withError 400 res.error else return ⟨200, .empty⟩

/-! ### /device/authorize and /device -/

/-- handlers/helpers.go `optionalString`. -/
def optional (s : Str) : Option Str := if s = [] then none else some s

/-- handlers/device_authorization.go:41-74; the client of the context is not read. -/
def deviceAuthzHandler (S : Server) (r : Req) : Prog Resp :=
  if r.method ≠ g!"POST" then err 405 .invalidRequest
  else do
    let res ← Device.authorize (some {
      issuer := S.issuer, clientId := r.formValue g!"client_id", scope := optional (r.formValue g!"scope"),
      audience := optional (r.formValue g!"audience") })
    if res.goErr then withError 400 res.error
    else return ⟨200, .device res.deviceCode res.userCode (S.issuer ++ g!"/device") res.expiresIn res.interval⟩

/-- handlers/device_validation.go:33-105. -/
def deviceHandler (S : Server) (r : Req) (sub : Str) : Prog Resp :=
  if sub = [] then err 401 .invalidRequest
  else if r.method = g!"GET" then .ret ⟨200, .form⟩
  else if r.method = g!"POST" then do
    let res ← Device.validate (some { issuer := S.issuer, subject := sub, userCode := r.postValue g!"user_code" })
    if res.goErr then withError 400 res.error else return ⟨200, .empty⟩
  else err 405 .invalidRequest

/-! ### /par and /authorize -/

/-- sdk/jwsreq/decoder.go:44-70 `Decode` with the default verifier on the keys registered
by the client; `none` is the error case. The key provider never answers a nil set. -/
def decodeRequest (S : Server) (client : Client) (raw : Str) : Option AuthzRequest :=
  if raw = [] then none
  else match Jose.defaultClaims S.requestParse S.requestDec ((S.P.jwks client.jwks).map some) raw with
    | .ok ar => some ar
    | _ => none

/-- handlers/par.go:48-117. Without client the error is written with the implicit
status 200. -/
def parHandler (S : Server) (r : Req) (client : Option Client) : Prog Resp :=
  if r.method ≠ g!"POST" then .ret ⟨405, .empty⟩
  else match client with
    | none => err 200 .invalidClient
    | some client => do
      match ← DPoP.verify S.E { htm := r.method, htu := r.url, proof := r.dpop } with
      | none => err 400 .invalidDPoPProof
      | some jkt =>
        match decodeRequest S client (r.get g!"request") with
        | none => err 400 .invalidRequest
        | some ar =>
          let res ← Authorization.register S.E (some {
            issuer := S.issuer, client := some client, request := some ar, confirmation := some ⟨jkt⟩ })
          if res.goErr then withError 400 res.error
          else return ⟨201, .par res.issuer res.requestUri res.expiresIn⟩

/-- handlers/authorization.go:118-130: the delivery chosen for a response mode. -/
def deliveryOf (mode : Str) : Delivery :=
  if mode = responseTypeCode then .query
  else if mode = modeQueryJWT then .queryJWT
  else if mode = modeFragmentJWT then .fragmentJWT
  else if mode = modeFormPostJWT then .formPostJWT
  else .queryJWT

/-- The part of an authorization answer that is signed. -/
def jarmResp (res : AuthorizeResp) : Sign.JarmResp :=
  { error := none, code := res.code, state := res.state, clientId := res.clientId, issuer := res.issuer,
    expiresIn := res.expiresIn }

/-- handlers/authorization.go:136-254: write the answer; the redirection URI is written
unchanged here, up to its query or fragment. -/
def deliver (S : Server) (res : AuthorizeResp) : Prog Resp :=
  if ¬ S.E.parseRequestURI res.redirectUri then err 500 .serverError
  else match deliveryOf res.responseMode with
    | .query => .ret ⟨302, .authorization res.redirectUri .query res.code⟩
    | d => do
      match ← Sign.jarmEncode S.jarmSer res.issuer (some (jarmResp res)) with
      | none => err 500 .serverError
      | some t => return ⟨if d = .formPostJWT then 200 else 302, .authorization res.redirectUri d t⟩

/-- handlers/authorization.go:48-131. -/
def authorizeHandler (S : Server) (r : Req) (sub : Str) : Prog Resp :=
  if r.method ≠ g!"GET" then err 405 .invalidRequest
  else if sub = [] then err 401 .invalidClient
  else do
    match ← Prog.call (.clientsGet (r.get g!"client_id")) with
    | .error _ => err 400 .invalidRequest
    | .ok none => Prog.panic
    | .ok (some client) =>
      match (if client.subjectType = g!"pairwise" then Lib.pairwise S.pairHash S.pairSalt client.sectorIdentifier sub
             else some sub) with
      | none => err 500 .serverError
      | some sub =>
        match decodeRequest S client (r.get g!"request") with
        | none => err 400 .invalidRequest
        | some ar =>
          let res ← Authorization.authorize S.E (some {
            issuer := S.issuer, client := some client, subject := sub, request := some ar })
          if res.goErr then withError 400 res.error else deliver S res

/-! ### Routes (main.go:68-77) -/

inductive Route where
  | par | authorize | token | introspect | revoke | deviceAuthorize | device
deriving DecidableEq, Repr

/-- The program serving a request. -/
def serve (S : Server) : Route → Req → Prog Resp
  | .par, r => clientAuth S r (parHandler S r)
  | .authorize, r => basicAuth r (authorizeHandler S r)
  | .token, r => clientAuth S r (tokenHandler S r)
  | .introspect, r => clientAuth S r (introspectHandler S r)
  | .revoke, r => clientAuth S r (revokeHandler S r)
  | .deviceAuthorize, r => clientAuth S r (fun _ => deviceAuthzHandler S r)
  | .device, r => basicAuth r (deviceHandler S r)

end Verif.Http
