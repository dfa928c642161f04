import Verif.Spec.Token
import Verif.Model.Env
import Verif.Go.Base64

/-!
Vocabulary for the error codes of the token endpoint: the reasons to refuse a request, and
the codes that RFC 6749 section 5.2, RFC 8628 section 3.5 and RFC 8693 section 2.2.2
prescribe for them.
-/
namespace Verif.Spec

/-- Reasons to refuse a token request. -/
inductive Reason where
  /-- no request, or a parameter that the grant needs is missing or not allowed -/
  | request | parameter | codeParameter
  /-- the server has no usable name -/
  | issuer
  /-- no client, or nobody knows it -/
  | noClient | unknownClient
  /-- a grant type that the server does not know, or without its payload -/
  | grantUnknown | grantMissing
  /-- the client may not use this grant type -/
  | notRegistered | publicClient
  /-- the code is unknown, or was issued for another redirect URI or verifier -/
  | codeUnknown | codeMismatch
  /-- the device code is unknown, of another client, expired, not approved yet, or in another state -/
  | deviceUnknown | deviceForeign | deviceExpired | devicePending | deviceState
  /-- the refresh token is unknown, revoked, expired, of another client or no refresh token -/
  | refreshInvalid
  /-- the token to exchange is unknown, revoked, expired or no access token -/
  | subjectInvalid
  /-- nobody knows the audience -/
  | audienceUnknown
  /-- a store or generator failed or delivered something useless -/
  | broken
deriving DecidableEq, Repr

/-- The five grant types. -/
def knownGrants : List Str :=
  [g!"authorization_code", g!"client_credentials", g!"urn:ietf:params:oauth:grant-type:device_code", g!"refresh_token",
    g!"urn:ietf:params:oauth:grant-type:token-exchange"]

/-- The payload belongs to the grant type. -/
inductive Fits : Str → Grant → Prop
  | code (g : GrantCode) : Fits g!"authorization_code" (.authorizationCode g)
  | cc : Fits g!"client_credentials" .clientCredentials
  | device (d : Str) : Fits g!"urn:ietf:params:oauth:grant-type:device_code" (.deviceCode d)
  | refresh (v : Str) : Fits g!"refresh_token" (.refreshToken v)
  | exchange (g : GrantExchange) : Fits g!"urn:ietf:params:oauth:grant-type:token-exchange" (.tokenExchange g)

/-- The first time that was read. -/
def firstClock : List Ev → Option Nat
  | [] => none
  | ⟨.now, t⟩ :: _ => some t
  | _ :: l => firstClock l

/-- The call failed or delivered nothing useful. A lookup that finds nothing is not broken. -/
def Broken (ev : Ev) : Prop :=
  match ev with
  | ⟨.clientsGet _, r⟩ => r = .error .other ∨ r = .ok none
  | ⟨.csGet .., r⟩ => r = .error .other
  | ⟨.csDel .., r⟩ => ∃ e, r = .error e
  | ⟨.dsGetDev .., r⟩ => r = .error .other ∨ r = .ok none ∨
      ∃ i s, r = .ok (some (i, s)) ∧ (s.request = none ∨ s.client = none ∨ s.subject = none ∧ s.status = .validated)
  | ⟨.tkGetVal .., r⟩ => r = .error .other ∨ ∃ t, r = .ok (some t) ∧ t.metadata = none
  | ⟨.tkCreate .., r⟩ => ∃ e, r = .error e
  | ⟨.tkRevoke .., r⟩ => ∃ e, r = .error e
  | ⟨.genAT _, r⟩ => r = .ok [] ∨ ∃ e, r = .error e
  | ⟨.genRT _, r⟩ => r = .ok [] ∨ ∃ e, r = .error e
  | _ => False

/-- The request `req`, which made the calls `tr`, was made by the client `cl` of the store. -/
def ByClient (q : TokenReq) (tr : List Ev) (cl : Client) : Prop :=
  ∃ c, q.client = some c ∧ ⟨.clientsGet c.clientId, .ok (some cl)⟩ ∈ tr

/-- The reason `k` to refuse the request `req`, which made the calls `tr`, is there. -/
def HasReason (E : Env) (req : Option TokenReq) (tr : List Ev) (k : Reason) : Prop :=
  match req with
  | none => k = .request
  | some q =>
    match k with
    | .request => False
    | .issuer => q.issuer = [] ∨ E.parseRequestURI q.issuer = false
    | .noClient => q.client = none
    | .unknownClient => ∃ c, q.client = some c ∧ ⟨.clientsGet c.clientId, .error .notFound⟩ ∈ tr
    | .grantUnknown => q.grantType ∉ knownGrants
    | .grantMissing => q.grantType ∈ knownGrants ∧ ∀ g, q.grant = some g → ¬ Fits q.grantType g
    | .notRegistered => ∃ cl, ByClient q tr cl ∧ ¬ MemFold q.grantType cl.grantTypes
    | .publicClient => q.grant = some .clientCredentials ∧ ∃ cl, ByClient q tr cl ∧ cl.clientType ≠ .confidential ∧
        cl.clientType ≠ .credentialed
    | .codeParameter => ∃ g, q.grant = some (.authorizationCode g) ∧ (g.code = [] ∨ g.codeVerifier = [] ∨ g.redirectUri = [] ∨
        1024 < Go.runeCount g.code ∨ g.codeVerifier.length < 43 ∨ 128 < g.codeVerifier.length)
    | .parameter => q.grant = some (.deviceCode []) ∨ q.grant = some (.refreshToken []) ∨
        ∃ g, q.grant = some (.tokenExchange g) ∧ (g.subjectToken = [] ∨
          g.subjectTokenType ≠ g!"urn:ietf:params:oauth:token-type:access_token")
    | .codeUnknown => ∃ g, q.grant = some (.authorizationCode g) ∧ (⟨.csGet q.issuer g.code, .error .notFound⟩ ∈ tr ∨
        ∃ s, ⟨.csGet q.issuer g.code, .ok (some s)⟩ ∈ tr ∧ s.request = none)
    | .codeMismatch => ∃ g s ar cl, q.grant = some (.authorizationCode g) ∧ ⟨.csGet q.issuer g.code, .ok (some s)⟩ ∈ tr ∧
        s.request = some ar ∧ ByClient q tr cl ∧ (g.redirectUri ≠ ar.redirectUri ∨ ¬ MemFold g.redirectUri cl.redirectUris ∨
          ar.codeChallengeMethod ≠ g!"S256" ∨ Go.b64 (E.sha256 g.codeVerifier) ≠ ar.codeChallenge)
    | .deviceUnknown => ∃ d, q.grant = some (.deviceCode d) ∧ ⟨.dsGetDev q.issuer d, .error .notFound⟩ ∈ tr
    | .deviceForeign => ∃ d i s r cl, q.grant = some (.deviceCode d) ∧ ⟨.dsGetDev q.issuer d, .ok (some (i, s))⟩ ∈ tr ∧
        s.request = some r ∧ ByClient q tr cl ∧ r.clientId ≠ cl.clientId
    | .deviceExpired => ∃ d i s t, q.grant = some (.deviceCode d) ∧ ⟨.dsGetDev q.issuer d, .ok (some (i, s))⟩ ∈ tr ∧
        firstClock tr = some t ∧ s.expiresAt < t / 1000000000
    | .devicePending => ∃ d i s, q.grant = some (.deviceCode d) ∧ ⟨.dsGetDev q.issuer d, .ok (some (i, s))⟩ ∈ tr ∧
        s.status = .authorizationPending
    | .deviceState => ∃ d i s, q.grant = some (.deviceCode d) ∧ ⟨.dsGetDev q.issuer d, .ok (some (i, s))⟩ ∈ tr ∧
        s.status ≠ .authorizationPending ∧ s.status ≠ .validated
    | .refreshInvalid => ∃ v, q.grant = some (.refreshToken v) ∧ (⟨.tkGetVal q.issuer v, .error .notFound⟩ ∈ tr ∨
        ∃ t, ⟨.tkGetVal q.issuer v, .ok (some t)⟩ ∈ tr ∧ (t.status ≠ .active ∨ t.tokenType ≠ .refreshToken ∨
          ∃ md, t.metadata = some md ∧ ((∃ n, firstClock tr = some n ∧ md.expiresAt < n / 1000000000) ∨
            ∃ cl, ByClient q tr cl ∧ md.clientId ≠ cl.clientId)))
    | .subjectInvalid => ∃ g, q.grant = some (.tokenExchange g) ∧ (⟨.tkGetVal q.issuer g.subjectToken, .error .notFound⟩ ∈ tr ∨
        ∃ t, ⟨.tkGetVal q.issuer g.subjectToken, .ok (some t)⟩ ∈ tr ∧ (t.status ≠ .active ∨ t.tokenType ≠ .accessToken ∨
          ∃ md n, t.metadata = some md ∧ firstClock tr = some n ∧ md.expiresAt < n / 1000000000))
    | .audienceUnknown => ∃ g aud, q.grant = some (.tokenExchange g) ∧ q.audience = some aud ∧
        ⟨.resourcesGet aud, .error .notFound⟩ ∈ tr
    | .broken => ∃ ev ∈ tr, Broken ev

/-- The code that the standards prescribe; `none` where they prescribe none, for failures of
the server. -/
def Reason.prescribed : Reason → Option ErrCode
  | .request => some .invalidRequest
  | .parameter => some .invalidRequest
  | .codeParameter => some .invalidRequest
  | .issuer => none
  | .noClient => some .invalidClient
  | .unknownClient => some .invalidClient
  | .grantUnknown => some .unsupportedGrantType
  | .grantMissing => some .invalidRequest
  | .notRegistered => some .unauthorizedClient
  | .publicClient => some .unauthorizedClient
  | .codeUnknown => some .invalidGrant
  | .codeMismatch => some .invalidGrant
  | .deviceUnknown => some .invalidGrant
  | .deviceForeign => some .invalidGrant
  | .deviceExpired => some .tokenExpired
  | .devicePending => some .authorizationPending
  | .deviceState => some .invalidGrant
  | .refreshInvalid => some .invalidGrant
  | .subjectInvalid => some .invalidRequest
  | .audienceUnknown => some .invalidTarget
  | .broken => none

/-- The code that the token endpoint gives; `none` where it gives none. -/
def Reason.given : Reason → Option ErrCode
  | .request => some .invalidRequest
  | .parameter => some .invalidRequest
  | .codeParameter => some .invalidGrant
  | .issuer => some .serverError
  | .noClient => some .invalidClient
  | .unknownClient => some .invalidClient
  | .grantUnknown => some .invalidGrant
  | .grantMissing => some .invalidGrant
  | .notRegistered => some .unsupportedGrantType
  | .publicClient => some .invalidClient
  | .codeUnknown => some .invalidGrant
  | .codeMismatch => some .invalidGrant
  | .deviceUnknown => some .invalidRequest
  | .deviceForeign => some .invalidRequest
  | .deviceExpired => some .tokenExpired
  | .devicePending => some .authorizationPending
  | .deviceState => some .invalidToken
  | .refreshInvalid => some .invalidRequest
  | .subjectInvalid => some .invalidRequest
  | .audienceUnknown => none
  | .broken => some .serverError

/-- The answer refuses the request for the reason `k`. Only failures while a token is exchanged
are reported without a code. The state of the authorization request is only told when the
redirect URI or the verifier do not belong to the code. -/
def Tells (q : Option TokenReq) (tr : List Ev) (a : TokenResp) (k : Reason) : Prop :=
  (∃ e, a.error = some e ∧ k.given = some e.code ∧ (e.state = none ∨ k = .codeMismatch ∧
    ∃ r g s ar, q = some r ∧ r.grant = some (.authorizationCode g) ∧ ⟨.csGet r.issuer g.code, .ok (some s)⟩ ∈ tr ∧
      s.request = some ar ∧ e.state = some ar.state)) ∨
  (a.error = none ∧ (k.given = none ∨ k = .broken) ∧ ∃ r g, q = some r ∧ r.grant = some (.tokenExchange g))

end Verif.Spec
