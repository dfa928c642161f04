import Verif.Model.Prog
import Verif.Model.Env
import Verif.Model.Oidc
import Verif.Model.StringArray
import Verif.Model.Device
import Verif.Go.Base64

/-! `server/services/token/*.go` -/
namespace Verif.TokenSvc
open Verif.Oidc Verif.StringArray
open Verif.Device (unix)

/-- A failing answer: OAuth error plus Go error. -/
def fail (c : ErrCode) : TokenResp := { error := some ⟨c, none⟩, goErr := true }
/-- A failing answer echoing the authorization request state. -/
def failS (c : ErrCode) (state : Str) : TokenResp := { error := some (.withState c state), goErr := true }

/-- validator.go:30-77 `validateRequest`; `none` means valid. -/
def validateRequest (req : Option TokenReq) : Option ErrCode :=
  match req with
  | none => some .invalidRequest
  | some req =>
    if req.issuer = [] then some .serverError
    else if req.client.isNone then some .invalidClient
    else if req.grantType = grantAuthorizationCode then
      match req.grant with | some (.authorizationCode _) => none | _ => some .invalidGrant
    else if req.grantType = grantClientCredentials then
      match req.grant with | some .clientCredentials => none | _ => some .invalidGrant
    else if req.grantType = grantDeviceCode then
      match req.grant with | some (.deviceCode _) => none | _ => some .invalidGrant
    else if req.grantType = grantRefreshToken then
      match req.grant with | some (.refreshToken _) => none | _ => some .invalidGrant
    else if req.grantType = grantTokenExchange then
      match req.grant with | some (.tokenExchange _) => none | _ => some .invalidGrant
    else some .invalidGrant

/-- generator.go:42-57: the access token specification before its value is generated. -/
def accessTokenSpec (client : Client) (md : TokenMeta) (cnf : Option Cnf) (now : Nat) (jti : Str) : Token :=
  { tokenType := .accessToken, tokenId := jti,
    metadata := some {
      issuer := md.issuer, subject := md.subject, clientId := client.clientId,
      issuedAt := unix now, notBefore := unix now + 1,
      expiresAt := unix (now + 3600 * 1000000000), scope := md.scope, audience := md.audience },
    confirmation := cnf, status := .active }

/-- generator.go:84-99: the refresh token specification. `AddDate(0,0,7)` is
seven times 24 hours (UTC; a daylight-saving shift of the local zone is not
modelled). -/
def refreshTokenSpec (client : Client) (md : TokenMeta) (cnf : Option Cnf) (now : Nat) (jti : Str) : Token :=
  { tokenType := .refreshToken, tokenId := jti,
    metadata := some {
      issuer := md.issuer, subject := md.subject, clientId := client.clientId,
      issuedAt := unix now, notBefore := unix now + 1,
      expiresAt := unix (now + 7 * 86400 * 1000000000), scope := md.scope, audience := md.audience },
    confirmation := cnf, status := .active }

/-- generator.go:37-77 `generateAccessToken`; `none` is the error case. -/
def generateAccessToken (client : Client) (md : TokenMeta) (cnf : Option Cnf) : Prog (Option Token) := do
  let now ← Prog.call .now
  let jti ← Prog.call .jti
  let spec := accessTokenSpec client md cnf now jti
  match ← Prog.call (.genAT spec) with
  | .error _ => return none
  | .ok value =>
    if value = [] then return none
    else
      match ← Prog.call (.tkCreate md.issuer { spec with value := value }) with
      | .error _ => return none
      | .ok () => return some { spec with value := value }

/-- generator.go:79-119 `generateRefreshToken`. -/
def generateRefreshToken (client : Client) (md : TokenMeta) (cnf : Option Cnf) : Prog (Option Token) := do
  let now ← Prog.call .now
  let jti ← Prog.call .jti
  let spec := refreshTokenSpec client md cnf now jti
  match ← Prog.call (.genRT spec) with
  | .error _ => return none
  | .ok value =>
    if value = [] then return none
    else
      match ← Prog.call (.tkCreate md.issuer { spec with value := value }) with
      | .error _ => return none
      | .ok () => return some { spec with value := value }

/-- grant_authorization_code.go:152-192: token generation once every check passed. -/
def codeTokens (client : Client) (req : TokenReq) (subject : Str) (ar : AuthzRequest) : Prog TokenResp :=
  let scopes := Go.fields ar.scope
  if contains scopes scopeOpenID then do
    let tm : TokenMeta := { issuer := req.issuer, subject := subject, audience := ar.audience, scope := ar.scope }
    match ← generateAccessToken client tm req.tokenConfirmation with
    | none => return fail .serverError
    | some at_ =>
      if contains scopes scopeOfflineAccess then
        match ← generateRefreshToken client tm at_.confirmation with
        | none => return fail .serverError
        | some rt => return { accessToken := some at_, refreshToken := some rt }
      else return { accessToken := some at_ }
  else .ret {}

/-- grant_authorization_code.go:127-150: the checks made after the session was
deleted; `none` means all passed. -/
def codeChecks (E : Env) (client : Client) (g : GrantCode) (ar : AuthzRequest) : Option TokenResp :=
  if ar.redirectUri ≠ g.redirectUri then some (failS .invalidGrant ar.state)
  else if ¬ contains client.redirectUris g.redirectUri then some (failS .invalidGrant ar.state)
  else if ar.codeChallengeMethod = methodS256 then
    if Go.b64 (E.sha256 g.codeVerifier) ≠ ar.codeChallenge then some (failS .invalidGrant ar.state)
    else none
  else some (failS .invalidGrant ar.state)

/-- grant_authorization_code.go:45-193 `authorizationCode`. The nil checks of
lines 50-61 cannot fire after `validateRequest`, except for the client, which
`Token` obtained from the store. -/
def authorizationCode (E : Env) (client : Option Client) (req : TokenReq) (g : GrantCode) :
    Prog TokenResp :=
  match client with
  | none => .ret (fail .serverError)
  | some client =>
    if req.issuer = [] then .ret (fail .serverError)
    else if ¬ E.parseRequestURI req.issuer then .ret (fail .serverError)
    else if ¬ contains client.grantTypes grantAuthorizationCode then .ret (fail .unsupportedGrantType)
    else if g.code = [] ∨ g.codeVerifier = [] ∨ g.redirectUri = [] then .ret (fail .invalidGrant)
    else if Go.runeCount g.code > 1024 then .ret (fail .invalidGrant)
    else if g.codeVerifier.length < 43 then .ret (fail .invalidGrant)
    else if g.codeVerifier.length > 128 then .ret (fail .invalidGrant)
    else do
      match ← Prog.call (.csGet req.issuer g.code) with
      | .error .other => return fail .serverError
      | .error .notFound => return fail .invalidGrant
      | .ok none => Prog.panic -- line 115 dereferences the session
      | .ok (some sess) =>
        match sess.request with
        | none => return fail .invalidGrant
        | some ar =>
          match ← Prog.call (.csDel req.issuer g.code) with
          | .error _ => return fail .serverError
          | .ok () =>
            match codeChecks E client g ar with
            | some r => return r
            | none => codeTokens client req sess.subject ar

/-- grant_client_credentials.go:33-102 `clientCredentials`. -/
def clientCredentials (E : Env) (client : Option Client) (req : TokenReq) : Prog TokenResp :=
  match client with
  | none => .ret (fail .serverError)
  | some client =>
    if req.issuer = [] then .ret (fail .serverError)
    else if ¬ E.parseRequestURI req.issuer then .ret (fail .serverError)
    else if ¬ (client.clientType = .confidential ∨ client.clientType = .credentialed) then
      .ret (fail .invalidClient)
    else if ¬ contains client.grantTypes grantClientCredentials then .ret (fail .unsupportedGrantType)
    else do
      let tm : TokenMeta := { issuer := req.issuer, scope := req.scope.getD [], audience := req.audience.getD [] }
      match ← generateAccessToken client tm req.tokenConfirmation with
      | none => return fail .serverError
      | some at_ => return { accessToken := some at_ }

/-- grant_device_code.go:134-174: token generation of the device grant. -/
def deviceTokens (client : Client) (req : TokenReq) (subject : Str) (scope : Option Str) : Prog TokenResp := do
  let tm : TokenMeta := { issuer := req.issuer, subject := subject, scope := scope.getD [] }
  match ← generateAccessToken client tm req.tokenConfirmation with
  | none => return fail .serverError
  | some at_ =>
    match scope with
    | none => return { accessToken := some at_ }
    | some sc =>
      if contains (Go.fields sc) scopeOfflineAccess then
        match ← generateRefreshToken client tm at_.confirmation with
        | none => return fail .serverError
        | some rt => return { accessToken := some at_, refreshToken := some rt }
      else return { accessToken := some at_ }

/-- grant_device_code.go:37-175 `deviceCode`. -/
def deviceCode (E : Env) (client : Option Client) (req : TokenReq) (dc : Str) : Prog TokenResp :=
  match client with
  | none => .ret (fail .serverError)
  | some client =>
    if req.issuer = [] then .ret (fail .serverError)
    else if ¬ E.parseRequestURI req.issuer then .ret (fail .serverError)
    else if ¬ contains client.grantTypes grantDeviceCode then .ret (fail .unsupportedGrantType)
    else if dc = [] then .ret (fail .invalidRequest)
    else do
      match ← Prog.call (.dsGetDev req.issuer dc) with
      | .error .other => return fail .serverError
      | .error .notFound => return fail .invalidRequest
      | .ok none => return fail .serverError
      | .ok (some (_, session)) =>
        match session.request with
        | none => return fail .serverError
        | some dreq =>
          if session.client.isNone then return fail .serverError
          else if dreq.clientId ≠ client.clientId then return fail .invalidRequest
          else
            let now ← Prog.call .now
            if session.expiresAt < unix now then return fail .tokenExpired
            else if session.status = .authorizationPending then return fail .authorizationPending
            else if session.status ≠ .validated then return fail .invalidToken
            else match session.subject with
              | none => return fail .serverError
              | some subject => deviceTokens client req subject session.scope

/-- grant_refresh_token.go:113-143: token generation of the refresh grant. -/
def refreshTokens (client : Client) (req : TokenReq) (rt : Token) (md : TokenMeta) : Prog TokenResp := do
  match ← generateAccessToken client md rt.confirmation with
  | none => return fail .serverError
  | some at_ =>
    if (at_.metadata.map (·.expiresAt)).getD 0 > md.expiresAt then
      match ← generateRefreshToken client md at_.confirmation with
      | none => return fail .serverError
      | some newRt =>
        match ← Prog.call (.tkRevoke req.issuer rt.tokenId) with
        | .error _ => return fail .serverError
        | .ok () => return { accessToken := some at_, refreshToken := some newRt }
    else return { accessToken := some at_ }

/-- grant_refresh_token.go:35-144 `refreshToken`. -/
def refreshToken (E : Env) (client : Option Client) (req : TokenReq) (rtv : Str) : Prog TokenResp :=
  match client with
  | none => .ret (fail .serverError)
  | some client =>
    if req.issuer = [] then .ret (fail .serverError)
    else if ¬ E.parseRequestURI req.issuer then .ret (fail .serverError)
    else if rtv = [] then .ret (fail .invalidRequest)
    else if ¬ contains client.grantTypes grantRefreshToken then .ret (fail .unsupportedGrantType)
    else do
      match ← Prog.call (.tkGetVal req.issuer rtv) with
      | .error .other => return fail .serverError
      | .error .notFound => return fail .invalidRequest
      | .ok none => Prog.panic -- line 88 dereferences the token
      | .ok (some rt) =>
        if rt.status ≠ .active then return fail .invalidRequest
        else if rt.tokenType ≠ .refreshToken then return fail .invalidRequest
        else match rt.metadata with
          | none => return fail .serverError
          | some md =>
            let now ← Prog.call .now
            if md.expiresAt < unix now then return fail .invalidRequest
            else if md.clientId ≠ client.clientId then return fail .invalidRequest
            else refreshTokens client req rt md

/-- grant_token_exchange.go:160-175: the exchanged token; `notBefore` is never set. -/
def exchangedSpec (client : Client) (st : Token) (md : TokenMeta) (scope : Str) (now : Nat) (jti : Str)
    (aud : Str) : Token :=
  { tokenType := .accessToken, tokenId := jti,
    metadata := some {
      issuer := md.issuer, subject := md.subject, clientId := client.clientId,
      issuedAt := unix now, expiresAt := unix (now + 60 * 1000000000), scope := scope, audience := aud },
    confirmation := st.confirmation, status := .active }

/-- A failing token exchange whose answer carries no OAuth error
(grant_token_exchange.go:180-206 return an error without setting `res.Error`). -/
def bareFail : TokenResp := { goErr := true }

/-- grant_token_exchange.go:192-219: value generation, storage and answer. -/
def exchangeFinish (req : TokenReq) (md : TokenMeta) (scope : Str) (spec : Token) : Prog TokenResp := do
  match ← Prog.call (.genAT spec) with
  | .error _ => return bareFail
  | .ok value =>
    if value = [] then return bareFail
    else
      match ← Prog.call (.tkCreate req.issuer { spec with value := value }) with
      | .error _ => return bareFail
      | .ok () =>
        return { issuer := md.issuer, accessToken := some { spec with value := value },
                 issuedTokenType := some exchangeAccessToken,
                 scope := if md.scope ≠ scope then some scope else none }

/-- grant_token_exchange.go:160-190: token specification and audience lookup.
Lines 180-186: a not-found answer returns an error without OAuth error; any
other error falls through both tests to line 189, which dereferences the nil
resource. -/
def exchangeBuild (client : Client) (req : TokenReq) (st : Token) (md : TokenMeta) : Prog TokenResp := do
  let scope := req.scope.getD md.scope
  let now ← Prog.call .now
  let jti ← Prog.call .jti
  match req.audience with
  | none => exchangeFinish req md scope (exchangedSpec client st md scope now jti [])
  | some a =>
    match ← Prog.call (.resourcesGet a) with
    | .error .notFound => return bareFail
    | .error .other => Prog.panic
    | .ok none => Prog.panic
    | .ok (some res) => exchangeFinish req md scope (exchangedSpec client st md scope now jti res.urn)

/-- grant_token_exchange.go:39-158 `tokenExchange` and the checks of
`tokenExchangeAccessToken`. -/
def tokenExchange (E : Env) (client : Option Client) (req : TokenReq) (g : GrantExchange) : Prog TokenResp :=
  match client with
  | none => .ret (fail .serverError)
  | some client =>
    if req.issuer = [] then .ret (fail .serverError)
    else if ¬ E.parseRequestURI req.issuer then .ret (fail .serverError)
    else if g.subjectTokenType = [] then .ret (fail .invalidRequest)
    else if g.subjectToken = [] then .ret (fail .invalidRequest)
    else if ¬ contains client.grantTypes grantTokenExchange then .ret (fail .unsupportedGrantType)
    else if g.subjectTokenType ≠ exchangeAccessToken then .ret (fail .invalidRequest)
    else do
      match ← Prog.call (.tkGetVal req.issuer g.subjectToken) with
      | .error .other => return fail .serverError
      | .error .notFound => return fail .invalidRequest
      | .ok none => Prog.panic -- line 135 dereferences the token
      | .ok (some st) =>
        if st.status ≠ .active then return fail .invalidRequest
        else if st.tokenType ≠ .accessToken then return fail .invalidRequest
        else match st.metadata with
          | none => return fail .serverError
          | some md =>
            let now ← Prog.call .now
            if md.expiresAt < unix now then return fail .invalidRequest
            else exchangeBuild client req st md

/-- service.go:80-95: dispatch on the grant type; the grant payload matches the
type because `validateRequest` passed (a mismatch is unreachable and modelled as
the nil-grant error of each grant function). -/
def dispatch (E : Env) (client : Option Client) (req : TokenReq) : Prog TokenResp :=
  if req.grantType = grantClientCredentials then
    match req.grant with
    | some .clientCredentials => clientCredentials E client req
    | _ => .ret (fail .serverError)
  else if req.grantType = grantAuthorizationCode then
    match req.grant with
    | some (.authorizationCode g) => authorizationCode E client req g
    | _ => .ret (fail .serverError)
  else if req.grantType = grantDeviceCode then
    match req.grant with
    | some (.deviceCode dc) => deviceCode E client req dc
    | _ => .ret (fail .serverError)
  else if req.grantType = grantRefreshToken then
    match req.grant with
    | some (.refreshToken v) => refreshToken E client req v
    | _ => .ret (fail .serverError)
  else if req.grantType = grantTokenExchange then
    match req.grant with
    | some (.tokenExchange g) => tokenExchange E client req g
    | _ => .ret (fail .serverError)
  else .ret (fail .invalidGrant)

/-- service.go:59-99 `Token`. -/
def token (E : Env) (req : Option TokenReq) : Prog TokenResp :=
  match validateRequest req, req with
  | some e, _ => .ret (fail e)
  | none, none => .panic
  | none, some req => do
    match req.client with
    | none => Prog.panic -- unreachable: validateRequest refused it
    | some c =>
      match ← Prog.call (.clientsGet c.clientId) with
      | .error .other => return fail .serverError
      | .error .notFound => return fail .invalidClient
      | .ok client => dispatch E client req

/-- introspection.go:31-89 `Introspect`. -/
def introspect (E : Env) (req : Option TokenRefReq) : Prog IntrospectResp :=
  match req with
  | none => .ret { error := some ⟨.invalidRequest, none⟩, goErr := true }
  | some req =>
    if req.issuer = [] then .ret { error := some ⟨.invalidRequest, none⟩, goErr := true }
    else if ¬ E.parseRequestURI req.issuer then .ret { error := some ⟨.invalidRequest, none⟩, goErr := true }
    else match req.client with
      | none => .ret { error := some ⟨.invalidClient, none⟩, goErr := true }
      | some c =>
        if req.token = [] then .ret { error := some ⟨.invalidRequest, none⟩, goErr := true }
        else do
          match ← Prog.call (.clientsGet c.clientId) with
          | .error .other => return { error := some ⟨.serverError, none⟩, goErr := true }
          | .error .notFound => return { error := some ⟨.invalidClient, none⟩, goErr := true }
          | .ok _ =>
            match ← Prog.call (.tkGetVal req.issuer req.token) with
            | .error .other => return { error := some ⟨.serverError, none⟩, goErr := true }
            | .error .notFound =>
              return { token := some { issuer := req.issuer, value := req.token, status := .unknown } }
            | .ok t => return { token := t }

/-- revoke.go:30-81 `Revoke`; lookup and revocation failures return a Go error
without OAuth error. -/
def revoke (E : Env) (req : Option TokenRefReq) : Prog RevokeResp :=
  match req with
  | none => .ret { error := some ⟨.invalidRequest, none⟩, goErr := true }
  | some req =>
    if req.issuer = [] then .ret { error := some ⟨.invalidRequest, none⟩, goErr := true }
    else if ¬ E.parseRequestURI req.issuer then .ret { error := some ⟨.invalidRequest, none⟩, goErr := true }
    else match req.client with
      | none => .ret { error := some ⟨.invalidClient, none⟩, goErr := true }
      | some c =>
        if req.token = [] then .ret { error := some ⟨.invalidRequest, none⟩, goErr := true }
        else do
          match ← Prog.call (.clientsGet c.clientId) with
          | .error .other => return { error := some ⟨.serverError, none⟩, goErr := true }
          | .error .notFound => return { error := some ⟨.invalidClient, none⟩, goErr := true }
          | .ok _ =>
            match ← Prog.call (.tkGetVal req.issuer req.token) with
            | .error _ => return { goErr := true }
            | .ok none => Prog.panic -- line 75 dereferences the token
            | .ok (some t) =>
              match ← Prog.call (.tkRevoke req.issuer t.tokenId) with
              | .error _ => return { goErr := true }
              | .ok () => return {}

end Verif.TokenSvc
