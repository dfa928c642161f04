import Verif.Go.Str

/-!
Messages exchanged with and stored by the services: `proto/oidc/**`.
Optional proto fields are `Option`; message pointers that the code compares
with nil are `Option` as well.
-/
namespace Verif

/-- OAuth error codes built by `sdk/rfcerrors/errors.go` (only the `Err` string
matters; the description is a function of it). -/
inductive ErrCode where
  | serverError | invalidRequest | invalidScope | invalidGrant | invalidClient
  | unauthorizedClient | unsupportedGrantType | invalidToken | authorizationPending
  | slowDown | accessDenied | tokenExpired | invalidDPoPProof | invalidTarget
deriving DecidableEq, Repr

/-- `corev1.Error` (proto/oidc/core/v1/error.proto) without description/uri/resource. -/
structure OErr where
  code : ErrCode
  state : Option Str := none
deriving DecidableEq, Repr

/-- `sdk/rfcerrors/builder.go` `Build`: an empty state is left out. -/
def OErr.withState (c : ErrCode) (st : Str) : OErr :=
  { code := c, state := if st = [] then none else some st }

/-- `clientv1.ClientType` (proto/oidc/client/v1/client.proto). -/
inductive ClientType where
  | unspecified | confidential | credentialed | pub
deriving DecidableEq, Repr

/-- `clientv1.Client`; fields that no modelled function reads are left out. -/
structure Client where
  clientId : Str
  clientType : ClientType := .unspecified
  redirectUris : List Str := []
  responseTypes : List Str := []
  responseModes : List Str := []
  grantTypes : List Str := []
  clientName : Str := []
  jwks : Str := []
  jwksUri : Str := []
  subjectType : Str := []
  sectorIdentifier : Str := []
  tokenEndpointAuthMethod : Str := []
  dpopBoundAccessTokens : Bool := false
deriving DecidableEq, Repr

/-- `flowv1.AuthorizationRequest` (proto/oidc/flow/v1/flow.proto), all fields. -/
structure AuthzRequest where
  scope : Str := []
  responseType : Str := []
  clientId : Str := []
  redirectUri : Str := []
  state : Str := []
  responseMode : Option Str := none
  nonce : Str := []
  display : Option Str := none
  prompt : Option Str := none
  maxAge : Option Nat := none
  uiLocales : Option Str := none
  idTokenHint : Option Str := none
  acrValues : Option Str := none
  request : Option Str := none
  requestUri : Option Str := none
  codeChallenge : Str := []
  codeChallengeMethod : Str := []
  audience : Str := []
  dpopProof : Option Str := none
  resource : List Str := []
  iss : Option Str := none
  loginHintToken : Option Str := none
  loginHint : Option Str := none
deriving DecidableEq, Repr

/-- `flowv1.AuthorizeRequest`. -/
structure AuthorizeReq where
  issuer : Str
  client : Option Client := none
  subject : Str
  request : Option AuthzRequest
deriving DecidableEq, Repr

/-- `flowv1.AuthorizeResponse` plus `goErr`: was the Go `error` non-nil. -/
structure AuthorizeResp where
  error : Option OErr := none
  code : Str := []
  state : Str := []
  redirectUri : Str := []
  clientId : Str := []
  expiresIn : Nat := 0
  issuer : Str := []
  responseMode : Str := []
  goErr : Bool := false
deriving DecidableEq, Repr

/-- `tokenv1.TokenConfirmation`: the thumbprint of the proof-of-possession key. -/
structure Cnf where
  jkt : Str
deriving DecidableEq, Repr

/-- `flowv1.RegistrationRequest`. -/
structure RegistrationReq where
  issuer : Str
  client : Option Client
  request : Option AuthzRequest
  confirmation : Option Cnf := none
deriving DecidableEq, Repr

/-- `flowv1.RegistrationResponse` plus `goErr`. -/
structure RegistrationResp where
  error : Option OErr := none
  requestUri : Str := []
  expiresIn : Nat := 0
  issuer : Str := []
  goErr : Bool := false
deriving DecidableEq, Repr

/-- `sessionv1.AuthorizationCodeSession` (proto/oidc/session/v1/session.proto). -/
structure CodeSession where
  client : Option Client := none
  issuer : Str
  subject : Str
  request : Option AuthzRequest
deriving DecidableEq, Repr

/-- `sessionv1.DeviceCodeStatus`. -/
inductive DeviceStatus where
  | unspecified | unknown | authorizationPending | confirmationPending | validated
deriving DecidableEq, Repr

/-- `flowv1.DeviceAuthorizationRequest`. -/
structure DeviceAuthzReq where
  issuer : Str
  clientId : Str
  scope : Option Str := none
  audience : Option Str := none
deriving DecidableEq, Repr

/-- `flowv1.DeviceAuthorizationResponse` plus `goErr`. -/
structure DeviceAuthzResp where
  error : Option OErr := none
  deviceCode : Str := []
  userCode : Str := []
  expiresIn : Nat := 0
  interval : Nat := 0
  issuer : Str := []
  goErr : Bool := false
deriving DecidableEq, Repr

/-- `flowv1.DeviceCodeValidationRequest`. -/
structure DeviceValidationReq where
  issuer : Str
  userCode : Str
  subject : Str
deriving DecidableEq, Repr

/-- `flowv1.DeviceCodeValidationResponse` plus `goErr`. -/
structure DeviceValidationResp where
  error : Option OErr := none
  goErr : Bool := false
deriving DecidableEq, Repr

/-- `sessionv1.DeviceCodeSession`. -/
structure DeviceSession where
  client : Option Client := none
  issuer : Str := []
  expiresAt : Nat := 0
  request : Option DeviceAuthzReq := none
  status : DeviceStatus := .unspecified
  deviceCode : Str := []
  subject : Option Str := none
  scope : Option Str := none
  audience : Option Str := none
deriving DecidableEq, Repr

/-- `tokenv1.TokenType`. -/
inductive TokenType where
  | unspecified | unknown | accessToken | refreshToken | idToken | phantomToken
deriving DecidableEq, Repr

/-- `tokenv1.TokenStatus`. -/
inductive TokenStatus where
  | unspecified | unknown | active | expired | revoked
deriving DecidableEq, Repr

/-- `tokenv1.TokenMeta` (proto/oidc/token/v1/token.proto). -/
structure TokenMeta where
  issuer : Str := []
  subject : Str := []
  issuedAt : Nat := 0
  notBefore : Nat := 0
  expiresAt : Nat := 0
  clientId : Str := []
  scope : Str := []
  audience : Str := []
  acr : Option Str := none
  authTime : Option Nat := none
deriving DecidableEq, Repr

/-- `tokenv1.Token`; the actor lists, which no modelled function reads, are left out. -/
structure Token where
  issuer : Str := []
  tokenType : TokenType := .unspecified
  tokenId : Str := []
  metadata : Option TokenMeta := none
  status : TokenStatus := .unspecified
  value : Str := []
  phantom : Option Str := none
  confirmation : Option Cnf := none
deriving DecidableEq, Repr

/-- `flowv1.GrantAuthorizationCode`. -/
structure GrantCode where
  code : Str
  redirectUri : Str
  codeVerifier : Str
deriving DecidableEq, Repr

/-- `flowv1.GrantTokenExchange` (the fields that are read). -/
structure GrantExchange where
  subjectToken : Str
  subjectTokenType : Str
deriving DecidableEq, Repr

/-- The `grant` oneof of `flowv1.TokenRequest`; unset is `none` at the use site. -/
inductive Grant where
  | authorizationCode (g : GrantCode)
  | clientCredentials
  | deviceCode (deviceCode : Str)
  | refreshToken (refreshToken : Str)
  | tokenExchange (g : GrantExchange)
deriving DecidableEq, Repr

/-- `flowv1.TokenRequest`. -/
structure TokenReq where
  issuer : Str
  client : Option Client
  grantType : Str
  scope : Option Str := none
  tokenConfirmation : Option Cnf := none
  audience : Option Str := none
  grant : Option Grant := none
deriving DecidableEq, Repr

/-- `flowv1.TokenResponse` plus `goErr`. -/
structure TokenResp where
  error : Option OErr := none
  accessToken : Option Token := none
  refreshToken : Option Token := none
  issuer : Str := []
  issuedTokenType : Option Str := none
  scope : Option Str := none
  goErr : Bool := false
deriving DecidableEq, Repr

/-- `tokenv1.IntrospectRequest` / `tokenv1.RevokeRequest` (same fields are read). -/
structure TokenRefReq where
  issuer : Str
  client : Option Client
  token : Str
deriving DecidableEq, Repr

/-- `tokenv1.IntrospectResponse` plus `goErr`. -/
structure IntrospectResp where
  error : Option OErr := none
  token : Option Token := none
  goErr : Bool := false
deriving DecidableEq, Repr

/-- `tokenv1.RevokeResponse` plus `goErr`. -/
structure RevokeResp where
  error : Option OErr := none
  goErr : Bool := false
deriving DecidableEq, Repr

/-- `resourcev1.Resource`. -/
structure Resource where
  urn : Str
deriving DecidableEq, Repr

end Verif
