import Verif.Model.Prog
import Verif.Model.Env
import Verif.Model.Oidc
import Verif.Model.StringArray

/-! `server/services/authorization/service.go` -/
namespace Verif.Authorization
open Verif.Oidc Verif.StringArray

/-- Answer of a failing `Authorize`: an OAuth error and a Go error. -/
def fail (c : ErrCode) : AuthorizeResp := { error := some ⟨c, none⟩, goErr := true }

/-- Answer of a failing `Register`. -/
def failR (c : ErrCode) : RegistrationResp := { error := some ⟨c, none⟩, goErr := true }

/-- service.go:274-279: supported response types. -/
def responseTypeOk (t : Str) : Bool := t == responseTypeCode || t == responseTypeToken

/-- service.go:284-289: supported response modes. -/
def responseModeOk (m : Str) : Bool :=
  m == modeQuery || m == modeFragment || m == modeFormPost ||
  m == modeJWT || m == modeFormPostJWT || m == modeQueryJWT || m == modeFragmentJWT

/-- service.go:283-290: an unsupported response mode was requested. -/
def responseModeBad : Option Str → Bool
  | some m => !responseModeOk m
  | none => false

/-- service.go:292-299: expansion of the `jwt` alias. -/
def expandMode (t m : Str) : Str :=
  if m = modeJWT then
    if t = responseTypeCode then modeQueryJWT
    else if t = responseTypeToken then modeFragmentJWT
    else m
  else m

/-- service.go:302-322: scope clean-up. -/
def cleanScope (scope : Str) (prompt : Option Str) : Str :=
  let scopes := Go.fields scope
  if contains scopes scopeOpenID then
    let scopes :=
      if contains scopes scopeOfflineAccess then
        match prompt with
        | none => remove scopes scopeOfflineAccess
        | some p => if p ≠ promptConsent then remove scopes scopeOfflineAccess else scopes
      else scopes
    Go.join g!" " scopes
  else scope

/-- service.go:238-322: the checks of `validate` that do not call the client
store, in order. The answer is the public error, or the request as mutated by
the alias expansion and the scope clean-up. -/
def checkRequest (E : Env) (req : Option AuthzRequest) : Except OErr AuthzRequest :=
  match req with
  | none => .error ⟨.invalidRequest, none⟩
  | some req =>
    if req.state = [] then .error ⟨.invalidRequest, none⟩
    else if req.state.length < 32 then .error (.withState .invalidRequest req.state)
    else if req.scope = [] ∨ req.responseType = [] ∨ req.clientId = [] ∨ req.redirectUri = [] ∨
        req.codeChallenge = [] ∨ req.codeChallengeMethod = [] ∨ req.audience = [] ∨ req.nonce = [] then
      .error (.withState .invalidRequest req.state)
    else if req.nonce.length < 8 then .error (.withState .invalidRequest req.state)
    else if req.codeChallengeMethod ≠ methodS256 then .error (.withState .invalidRequest req.state)
    else if req.codeChallenge.length ≠ 43 then .error (.withState .invalidRequest req.state)
    else if ¬ E.parseRequestURI req.redirectUri then .error (.withState .invalidRequest req.state)
    else if ¬ responseTypeOk req.responseType then .error (.withState .invalidRequest req.state)
    else if responseModeBad req.responseMode then .error (.withState .invalidRequest req.state)
    else
      .ok { req with
        responseMode := req.responseMode.map (expandMode req.responseType)
        scope := cleanScope req.scope req.prompt }

/-- service.go:339-362: capability checks on the client found in the store. -/
def checkClient (client : Client) (req : AuthzRequest) : Except OErr Unit :=
  if ¬ contains client.grantTypes grantAuthorizationCode then
    .error (.withState .unsupportedGrantType req.state)
  else if ¬ contains client.responseTypes req.responseType then
    .error (.withState .invalidRequest req.state)
  else if ¬ contains client.redirectUris req.redirectUri then
    .error (.withState .invalidRequest req.state)
  else match req.responseMode with
    | some m =>
      if ¬ contains client.responseModes m then .error (.withState .invalidRequest req.state)
      else .ok ()
    | none => .ok ()

/-- service.go:237-363 `validate` followed by `validateClientCapabilities`; the
request mutations are visible to the caller through the returned request. -/
def validate (E : Env) (req : Option AuthzRequest) : Prog (Except OErr AuthzRequest) :=
  match checkRequest E req with
  | .error e => .ret (.error e)
  | .ok req => do
    match ← Prog.call (.clientsGet req.clientId) with
    | .error .other => return .error (.withState .serverError req.state)
    | .error .notFound => return .error (.withState .invalidRequest req.state)
    | .ok none => Prog.panic -- service.go:340 dereferences the client
    | .ok (some client) =>
      match checkClient client req with
      | .error e => return .error e
      | .ok () => return .ok req

/-- service.go:124-162: second half of `Authorize`, once the effective request is known. -/
def authorizeWith (E : Env) (issuer subject : Str) (request : Option AuthzRequest) :
    Prog AuthorizeResp := do
  match ← validate E request with
  | .error e => return { error := some e, goErr := true }
  | .ok ar =>
    match ← Prog.call (.genCode issuer) with
    | .error _ => return { error := some (.withState .serverError ar.state), goErr := true }
    | .ok code =>
      match ← Prog.call (.csReg issuer code { issuer := issuer, subject := subject, request := some ar }) with
      | .error _ => return { error := some (.withState .serverError ar.state), goErr := true }
      | .ok expiresIn =>
        return { code := code, state := ar.state, redirectUri := ar.redirectUri,
                 clientId := ar.clientId, expiresIn := expiresIn, issuer := issuer }

/-- service.go:64-163 `Authorize`. -/
def authorize (E : Env) (req : Option AuthorizeReq) : Prog AuthorizeResp :=
  match req with
  | none => .ret (fail .invalidRequest)
  | some req =>
    match req.request with
    | none => .ret (fail .invalidRequest)
    | some r =>
      if req.issuer = [] then .ret (fail .invalidRequest)
      else if req.subject = [] then .ret (fail .invalidRequest)
      else match r.requestUri with
        | none => authorizeWith E req.issuer req.subject (some r)
        | some uri =>
          if ¬ E.requestUriOk req.issuer uri then .ret (fail .invalidRequest)
          else do
            match ← Prog.call (.arGet req.issuer uri) with
            | .error .other => return fail .serverError
            | .error .notFound => return fail .invalidRequest
            | .ok ar =>
              match ← Prog.call (.arDel req.issuer uri) with
              | .error .other => return fail .serverError
              | .error .notFound => return fail .invalidRequest
              | .ok () => authorizeWith E req.issuer req.subject ar

/-- service.go:165-232 `Register` (pushed authorization request). -/
def register (E : Env) (req : Option RegistrationReq) : Prog RegistrationResp :=
  match req with
  | none => .ret (failR .invalidRequest)
  | some req =>
    if req.issuer = [] then .ret (failR .invalidRequest)
    else match req.client, req.request with
      | none, _ => .ret (failR .invalidRequest)
      | some _, none => .ret (failR .invalidRequest)
      | some client, some r =>
        if r.requestUri.isSome then .ret (failR .invalidRequest)
        else do
          match ← validate E (some r) with
          | .error e => return { error := some e, goErr := true }
          | .ok ar =>
            if ar.clientId ≠ client.clientId then return failR .invalidRequest
            else
              match ← Prog.call (.genUri req.issuer) with
              | .error _ => return failR .serverError
              | .ok uri =>
                match ← Prog.call (.arReg req.issuer uri ar) with
                | .error _ => return failR .serverError
                | .ok expiresIn =>
                  return { requestUri := uri, expiresIn := expiresIn, issuer := req.issuer }

end Verif.Authorization
