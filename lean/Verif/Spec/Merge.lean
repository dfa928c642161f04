import Verif.Model.PbMap

/-!
What it is to merge one message into another, by the definition of the encoding
(https://protobuf.dev/programming-guides/encoding/#last-one-wins, "Last One Wins"): of a field
that occurs once the later value stays, lists are joined, messages within messages are merged, a
map takes the later value of a key, and of the members of a `oneof` the last one stays, merged
with what stood there if that is the same member. A field without presence is not written when it
has its zero value, so that it is as if it were not there.
-/
namespace Verif.Spec.Proto
open Verif.Pb

/-- A field without presence. -/
def later {α : Type} [DecidableEq α] (zero a b : α) : α := if b = zero then a else b

/-- A message within a message: merged into an empty one if there was none. -/
def mergeOpt {α : Type} (merge : α → α → α) (empty : α) : Option α → Option α → Option α
  | a, none => a
  | a, some b => some (merge (a.getD empty) b)

/-- A map: the keys of the first, with the values of the second where it has one, and then the
keys that only the second has. -/
def mergeMap : List (Str × Str) → List (Str × Str) → List (Str × Str)
  | [], l' => l'
  | (k, v) :: l, l' => (k, (l'.lookup k).getD v) :: mergeMap l (l'.filter fun e => e.1 ≠ k)

def mergeAuthenticateRequest (m x : AuthenticateRequest) : AuthenticateRequest :=
  { clientId := x.clientId.or m.clientId, clientSecret := x.clientSecret.or m.clientSecret,
    clientAssertionType := x.clientAssertionType.or m.clientAssertionType,
    clientAssertion := x.clientAssertion.or m.clientAssertion, unknown := m.unknown ++ x.unknown }

def mergeError (m x : Error) : Error :=
  { err := later [] m.err x.err, errorDescription := later [] m.errorDescription x.errorDescription,
    errorUri := x.errorUri.or m.errorUri, state := x.state.or m.state, resource := x.resource.or m.resource,
    unknown := m.unknown ++ x.unknown }

def mergeClient (m x : Client) : Client :=
  { clientId := later [] m.clientId x.clientId, clientType := later 0 m.clientType x.clientType,
    redirectUris := m.redirectUris ++ x.redirectUris, responseTypes := m.responseTypes ++ x.responseTypes,
    responseModes := m.responseModes ++ x.responseModes, grantTypes := m.grantTypes ++ x.grantTypes,
    applicationType := later [] m.applicationType x.applicationType, contacts := m.contacts ++ x.contacts,
    clientName := later [] m.clientName x.clientName, logoUri := later [] m.logoUri x.logoUri,
    clientUri := later [] m.clientUri x.clientUri, policyUri := later [] m.policyUri x.policyUri,
    tosUri := later [] m.tosUri x.tosUri, jwksUri := later [] m.jwksUri x.jwksUri, jwks := later [] m.jwks x.jwks,
    clientSecret := later [] m.clientSecret x.clientSecret, subjectType := later [] m.subjectType x.subjectType,
    sectorIdentifier := later [] m.sectorIdentifier x.sectorIdentifier,
    tokenEndpointAuthMethod := later [] m.tokenEndpointAuthMethod x.tokenEndpointAuthMethod,
    tlsClientAuthSubjectDn := later [] m.tlsClientAuthSubjectDn x.tlsClientAuthSubjectDn,
    tlsClientAuthSanDns := later [] m.tlsClientAuthSanDns x.tlsClientAuthSanDns,
    tlsClientAuthSanUri := later [] m.tlsClientAuthSanUri x.tlsClientAuthSanUri,
    tlsClientAuthSanIp := later [] m.tlsClientAuthSanIp x.tlsClientAuthSanIp,
    tlsClientAuthSanEmail := later [] m.tlsClientAuthSanEmail x.tlsClientAuthSanEmail,
    tlsClientCertificateBoundAccessTokens := later false m.tlsClientCertificateBoundAccessTokens x.tlsClientCertificateBoundAccessTokens,
    requirePushedAuthorizationRequests := later false m.requirePushedAuthorizationRequests x.requirePushedAuthorizationRequests,
    requireSignedRequestObject := later false m.requireSignedRequestObject x.requireSignedRequestObject,
    dpopBoundAccessTokens := later false m.dpopBoundAccessTokens x.dpopBoundAccessTokens,
    unknown := m.unknown ++ x.unknown }

def mergeAuthenticateResponse (m x : AuthenticateResponse) : AuthenticateResponse :=
  { error := mergeOpt mergeError {} m.error x.error, client := mergeOpt mergeClient {} m.client x.client,
    unknown := m.unknown ++ x.unknown }

def mergeRegisterResponse (m x : RegisterResponse) : RegisterResponse :=
  { error := mergeOpt mergeError {} m.error x.error, client := mergeOpt mergeClient {} m.client x.client,
    unknown := m.unknown ++ x.unknown }

def mergeSoftwareStatement (m x : SoftwareStatement) : SoftwareStatement :=
  { softwareId := later [] m.softwareId x.softwareId, unknown := m.unknown ++ x.unknown }

def mergeProtectedResourceMetadata (m x : ProtectedResourceMetadata) : ProtectedResourceMetadata :=
  { resource := later [] m.resource x.resource, authorizationServers := m.authorizationServers ++ x.authorizationServers,
    jwksUri := x.jwksUri.or m.jwksUri, scopesProvided := m.scopesProvided ++ x.scopesProvided,
    bearerMethodsSupported := m.bearerMethodsSupported ++ x.bearerMethodsSupported,
    resourceSigningAlgValuesSupported := m.resourceSigningAlgValuesSupported ++ x.resourceSigningAlgValuesSupported,
    resourceEncryptionAlgValuesSupported := m.resourceEncryptionAlgValuesSupported ++ x.resourceEncryptionAlgValuesSupported,
    resourceEncryptionEncValuesSupported := m.resourceEncryptionEncValuesSupported ++ x.resourceEncryptionEncValuesSupported,
    resourceDocumentation := x.resourceDocumentation.or m.resourceDocumentation,
    resourcePolicyUri := x.resourcePolicyUri.or m.resourcePolicyUri,
    resourceTosUri := x.resourceTosUri.or m.resourceTosUri, signedMetadata := x.signedMetadata.or m.signedMetadata,
    unknown := m.unknown ++ x.unknown }

def mergeMTLSEndpoints (m x : MTLSEndpoints) : MTLSEndpoints :=
  { tokenEndpoint := later [] m.tokenEndpoint x.tokenEndpoint,
    revocationEndpoint := later [] m.revocationEndpoint x.revocationEndpoint,
    introspectionEndpoint := later [] m.introspectionEndpoint x.introspectionEndpoint,
    pushedAuthorizationRequestEndpoint := later [] m.pushedAuthorizationRequestEndpoint x.pushedAuthorizationRequestEndpoint,
    deviceAuthorizationEndpoint := later [] m.deviceAuthorizationEndpoint x.deviceAuthorizationEndpoint,
    unknown := m.unknown ++ x.unknown }

def mergeServerMetadata (m x : ServerMetadata) : ServerMetadata :=
  { issuer := later [] m.issuer x.issuer,
    authorizationEndpoint := later [] m.authorizationEndpoint x.authorizationEndpoint,
    tokenEndpoint := later [] m.tokenEndpoint x.tokenEndpoint, jwksUri := later [] m.jwksUri x.jwksUri,
    userinfoEndpoint := later [] m.userinfoEndpoint x.userinfoEndpoint,
    registrationEndpoint := later [] m.registrationEndpoint x.registrationEndpoint,
    scopesSupported := m.scopesSupported ++ x.scopesSupported,
    responseTypesSupported := m.responseTypesSupported ++ x.responseTypesSupported,
    responseModesSupported := m.responseModesSupported ++ x.responseModesSupported,
    grantTypesSupported := m.grantTypesSupported ++ x.grantTypesSupported,
    acrValuesSupported := m.acrValuesSupported ++ x.acrValuesSupported,
    subjectTypesSupported := m.subjectTypesSupported ++ x.subjectTypesSupported,
    idTokenSigningAlgValuesSupported := m.idTokenSigningAlgValuesSupported ++ x.idTokenSigningAlgValuesSupported,
    idTokenEncryptionAlgValuesSupported := m.idTokenEncryptionAlgValuesSupported ++ x.idTokenEncryptionAlgValuesSupported,
    idTokenEncryptionEncValuesSupported := m.idTokenEncryptionEncValuesSupported ++ x.idTokenEncryptionEncValuesSupported,
    userinfoSigningAlgValuesSupported := m.userinfoSigningAlgValuesSupported ++ x.userinfoSigningAlgValuesSupported,
    userinfoEncryptionAlgValuesSupported := m.userinfoEncryptionAlgValuesSupported ++ x.userinfoEncryptionAlgValuesSupported,
    userinfoEncryptionEncValuesSupported := m.userinfoEncryptionEncValuesSupported ++ x.userinfoEncryptionEncValuesSupported,
    requestObjectSigningAlgValuesSupported := m.requestObjectSigningAlgValuesSupported ++ x.requestObjectSigningAlgValuesSupported,
    requestObjectEncryptionAlgValuesSupported := m.requestObjectEncryptionAlgValuesSupported ++ x.requestObjectEncryptionAlgValuesSupported,
    requestObjectEncryptionEncValuesSupported := m.requestObjectEncryptionEncValuesSupported ++ x.requestObjectEncryptionEncValuesSupported,
    tokenEndpointAuthMethodsSupported := m.tokenEndpointAuthMethodsSupported ++ x.tokenEndpointAuthMethodsSupported,
    tokenEndpointAuthSigningAlgValuesSupported := m.tokenEndpointAuthSigningAlgValuesSupported ++ x.tokenEndpointAuthSigningAlgValuesSupported,
    displayValuesSupported := m.displayValuesSupported ++ x.displayValuesSupported,
    claimTypesSupported := m.claimTypesSupported ++ x.claimTypesSupported,
    claimsSupported := m.claimsSupported ++ x.claimsSupported,
    serviceDocumentation := later [] m.serviceDocumentation x.serviceDocumentation,
    claimsLocalesSupported := m.claimsLocalesSupported ++ x.claimsLocalesSupported,
    uiLocalesSupported := m.uiLocalesSupported ++ x.uiLocalesSupported,
    claimsParameterSupported := later false m.claimsParameterSupported x.claimsParameterSupported,
    requestParameterSupported := later false m.requestParameterSupported x.requestParameterSupported,
    requestUriParameterSupported := later false m.requestUriParameterSupported x.requestUriParameterSupported,
    requireRequestUriRegistration := later false m.requireRequestUriRegistration x.requireRequestUriRegistration,
    opPolicyUri := later [] m.opPolicyUri x.opPolicyUri, opTosUri := later [] m.opTosUri x.opTosUri,
    revocationEndpoint := later [] m.revocationEndpoint x.revocationEndpoint,
    revocationEndpointAuthMethodsSupported := m.revocationEndpointAuthMethodsSupported ++ x.revocationEndpointAuthMethodsSupported,
    revocationEndpointAuthSigningAlgValuesSupported := m.revocationEndpointAuthSigningAlgValuesSupported ++ x.revocationEndpointAuthSigningAlgValuesSupported,
    introspectionEndpoint := later [] m.introspectionEndpoint x.introspectionEndpoint,
    introspectionEndpointAuthMethodsSupported := m.introspectionEndpointAuthMethodsSupported ++ x.introspectionEndpointAuthMethodsSupported,
    introspectionEndpointAuthSigningAlgValuesSupported := m.introspectionEndpointAuthSigningAlgValuesSupported ++ x.introspectionEndpointAuthSigningAlgValuesSupported,
    codeChallengeMethodsSupported := m.codeChallengeMethodsSupported ++ x.codeChallengeMethodsSupported,
    pushedAuthorizationRequestEndpoint := later [] m.pushedAuthorizationRequestEndpoint x.pushedAuthorizationRequestEndpoint,
    pushedAuthorizationRequestEndpointAuthMethodsSupported := m.pushedAuthorizationRequestEndpointAuthMethodsSupported ++ x.pushedAuthorizationRequestEndpointAuthMethodsSupported,
    mtlsEndpointAliases := mergeOpt mergeMTLSEndpoints {} m.mtlsEndpointAliases x.mtlsEndpointAliases,
    deviceAuthorizationEndpoint := later [] m.deviceAuthorizationEndpoint x.deviceAuthorizationEndpoint,
    dpopSigningAlgValuesSupported := m.dpopSigningAlgValuesSupported ++ x.dpopSigningAlgValuesSupported,
    tlsClientCertificateBoundAccessTokens := later false m.tlsClientCertificateBoundAccessTokens x.tlsClientCertificateBoundAccessTokens,
    authorizationSigningAlgValuesSupported := m.authorizationSigningAlgValuesSupported ++ x.authorizationSigningAlgValuesSupported,
    authorizationEncryptionAlgValuesSupported := m.authorizationEncryptionAlgValuesSupported ++ x.authorizationEncryptionAlgValuesSupported,
    authorizationEncryptionEncValuesSupported := m.authorizationEncryptionEncValuesSupported ++ x.authorizationEncryptionEncValuesSupported,
    authorizationResponseIssParameterSupported := later false m.authorizationResponseIssParameterSupported x.authorizationResponseIssParameterSupported,
    introspectionSigningAlgValuesSupported := m.introspectionSigningAlgValuesSupported ++ x.introspectionSigningAlgValuesSupported,
    introspectionEncryptionAlgValuesSupported := m.introspectionEncryptionAlgValuesSupported ++ x.introspectionEncryptionAlgValuesSupported,
    introspectionEncryptionEncValuesSupported := m.introspectionEncryptionEncValuesSupported ++ x.introspectionEncryptionEncValuesSupported,
    signedMetadata := later [] m.signedMetadata x.signedMetadata, unknown := m.unknown ++ x.unknown }

def mergeAuthorizationRequest (m x : AuthorizationRequest) : AuthorizationRequest :=
  { scope := later [] m.scope x.scope, responseType := later [] m.responseType x.responseType,
    clientId := later [] m.clientId x.clientId, redirectUri := later [] m.redirectUri x.redirectUri,
    state := later [] m.state x.state, responseMode := x.responseMode.or m.responseMode,
    nonce := later [] m.nonce x.nonce, display := x.display.or m.display, prompt := x.prompt.or m.prompt,
    maxAge := x.maxAge.or m.maxAge, uiLocales := x.uiLocales.or m.uiLocales,
    idTokenHint := x.idTokenHint.or m.idTokenHint, acrValues := x.acrValues.or m.acrValues,
    request := x.request.or m.request, requestUri := x.requestUri.or m.requestUri,
    codeChallenge := later [] m.codeChallenge x.codeChallenge,
    codeChallengeMethod := later [] m.codeChallengeMethod x.codeChallengeMethod,
    audience := later [] m.audience x.audience, dpopProof := x.dpopProof.or m.dpopProof,
    resource := m.resource ++ x.resource, iss := x.iss.or m.iss, loginHintToken := x.loginHintToken.or m.loginHintToken,
    loginHint := x.loginHint.or m.loginHint, unknown := m.unknown ++ x.unknown }

def mergeAuthorizeRequest (m x : AuthorizeRequest) : AuthorizeRequest :=
  { issuer := later [] m.issuer x.issuer, client := mergeOpt mergeClient {} m.client x.client,
    subject := later [] m.subject x.subject, request := mergeOpt mergeAuthorizationRequest {} m.request x.request,
    unknown := m.unknown ++ x.unknown }

def mergeAuthorizeResponse (m x : AuthorizeResponse) : AuthorizeResponse :=
  { error := mergeOpt mergeError {} m.error x.error, code := later [] m.code x.code, state := later [] m.state x.state,
    redirectUri := later [] m.redirectUri x.redirectUri, clientId := later [] m.clientId x.clientId,
    expiresIn := later 0 m.expiresIn x.expiresIn, issuer := later [] m.issuer x.issuer,
    responseMode := later [] m.responseMode x.responseMode, unknown := m.unknown ++ x.unknown }

def mergeTokenConfirmation (m x : TokenConfirmation) : TokenConfirmation :=
  { jkt := later [] m.jkt x.jkt, unknown := m.unknown ++ x.unknown }

def mergeRegistrationRequest (m x : RegistrationRequest) : RegistrationRequest :=
  { issuer := later [] m.issuer x.issuer, client := mergeOpt mergeClient {} m.client x.client,
    request := mergeOpt mergeAuthorizationRequest {} m.request x.request,
    confirmation := mergeOpt mergeTokenConfirmation {} m.confirmation x.confirmation, unknown := m.unknown ++ x.unknown }

def mergeRegistrationResponse (m x : RegistrationResponse) : RegistrationResponse :=
  { error := mergeOpt mergeError {} m.error x.error, requestUri := later [] m.requestUri x.requestUri,
    expiresIn := later 0 m.expiresIn x.expiresIn, issuer := later [] m.issuer x.issuer,
    unknown := m.unknown ++ x.unknown }

def mergeTokenMeta (m x : TokenMeta) : TokenMeta :=
  { issuer := later [] m.issuer x.issuer, subject := later [] m.subject x.subject,
    issuedAt := later 0 m.issuedAt x.issuedAt, notBefore := later 0 m.notBefore x.notBefore,
    expiresAt := later 0 m.expiresAt x.expiresAt, clientId := later [] m.clientId x.clientId,
    scope := later [] m.scope x.scope, audience := later [] m.audience x.audience, acr := x.acr.or m.acr,
    authTime := x.authTime.or m.authTime, unknown := m.unknown ++ x.unknown }

/-- An actor, which may contain an actor. -/
def mergeActor (m : Actor) : Actor → Actor
  | ⟨issuer, subject, clientId, none, u⟩ =>
    { issuer := later [] m.issuer issuer, subject := later [] m.subject subject, clientId := later [] m.clientId clientId,
      act := m.act, unknown := m.unknown ++ u }
  | ⟨issuer, subject, clientId, some a, u⟩ =>
    { issuer := later [] m.issuer issuer, subject := later [] m.subject subject, clientId := later [] m.clientId clientId,
      act := some (mergeActor (m.act.getD {}) a), unknown := m.unknown ++ u }

def mergeToken (m x : Token) : Token :=
  { issuer := later [] m.issuer x.issuer, tokenType := later 0 m.tokenType x.tokenType,
    tokenId := later [] m.tokenId x.tokenId, metadata := mergeOpt mergeTokenMeta {} m.metadata x.metadata,
    status := later 0 m.status x.status, value := later [] m.value x.value, phantom := x.phantom.or m.phantom,
    confirmation := mergeOpt mergeTokenConfirmation {} m.confirmation x.confirmation, actor := m.actor ++ x.actor,
    mayAct := m.mayAct ++ x.mayAct, unknown := m.unknown ++ x.unknown }

def mergeTokenResponse (m x : TokenResponse) : TokenResponse :=
  { error := mergeOpt mergeError {} m.error x.error, accessToken := mergeOpt mergeToken {} m.accessToken x.accessToken,
    refreshToken := mergeOpt mergeToken {} m.refreshToken x.refreshToken,
    idToken := mergeOpt mergeToken {} m.idToken x.idToken, issuer := later [] m.issuer x.issuer,
    issuedTokenType := x.issuedTokenType.or m.issuedTokenType, scope := x.scope.or m.scope,
    unknown := m.unknown ++ x.unknown }

def mergeDeviceAuthorizationRequest (m x : DeviceAuthorizationRequest) : DeviceAuthorizationRequest :=
  { issuer := later [] m.issuer x.issuer, clientId := later [] m.clientId x.clientId, scope := x.scope.or m.scope,
    audience := x.audience.or m.audience, unknown := m.unknown ++ x.unknown }

def mergeDeviceAuthorizationResponse (m x : DeviceAuthorizationResponse) : DeviceAuthorizationResponse :=
  { error := mergeOpt mergeError {} m.error x.error, deviceCode := later [] m.deviceCode x.deviceCode,
    userCode := later [] m.userCode x.userCode, verificationUri := later [] m.verificationUri x.verificationUri,
    verificationUriComplete := x.verificationUriComplete.or m.verificationUriComplete,
    expiresIn := later 0 m.expiresIn x.expiresIn, interval := later 0 m.interval x.interval,
    issuer := later [] m.issuer x.issuer, unknown := m.unknown ++ x.unknown }

def mergeDeviceCodeValidationRequest (m x : DeviceCodeValidationRequest) : DeviceCodeValidationRequest :=
  { issuer := later [] m.issuer x.issuer, userCode := later [] m.userCode x.userCode,
    subject := later [] m.subject x.subject, unknown := m.unknown ++ x.unknown }

def mergeDeviceCodeValidationResponse (m x : DeviceCodeValidationResponse) : DeviceCodeValidationResponse :=
  { error := mergeOpt mergeError {} m.error x.error, unknown := m.unknown ++ x.unknown }

def mergeGrantAuthorizationCode (m x : GrantAuthorizationCode) : GrantAuthorizationCode :=
  { code := later [] m.code x.code, redirectUri := later [] m.redirectUri x.redirectUri,
    codeVerifier := later [] m.codeVerifier x.codeVerifier, dpopJkt := x.dpopJkt.or m.dpopJkt,
    unknown := m.unknown ++ x.unknown }

def mergeGrantRefreshToken (m x : GrantRefreshToken) : GrantRefreshToken :=
  { refreshToken := later [] m.refreshToken x.refreshToken, unknown := m.unknown ++ x.unknown }

def mergeGrantDeviceCode (m x : GrantDeviceCode) : GrantDeviceCode :=
  { deviceCode := later [] m.deviceCode x.deviceCode, clientId := later [] m.clientId x.clientId,
    unknown := m.unknown ++ x.unknown }

def mergeGrantClientCredentials (m x : GrantClientCredentials) : GrantClientCredentials :=
  { unknown := m.unknown ++ x.unknown }

def mergeGrantTokenExchange (m x : GrantTokenExchange) : GrantTokenExchange :=
  { requestedTokenType := x.requestedTokenType.or m.requestedTokenType,
    subjectToken := later [] m.subjectToken x.subjectToken,
    subjectTokenType := later [] m.subjectTokenType x.subjectTokenType, actorToken := x.actorToken.or m.actorToken,
    actorTokenType := x.actorTokenType.or m.actorTokenType, unknown := m.unknown ++ x.unknown }

def mergeResource (m x : Resource) : Resource :=
  { urn := later [] m.urn x.urn, description := later [] m.description x.description, urls := m.urls ++ x.urls,
    unknown := m.unknown ++ x.unknown }

def mergeAuthorizationCodeSession (m x : AuthorizationCodeSession) : AuthorizationCodeSession :=
  { client := mergeOpt mergeClient {} m.client x.client, issuer := later [] m.issuer x.issuer,
    subject := later [] m.subject x.subject, request := mergeOpt mergeAuthorizationRequest {} m.request x.request,
    unknown := m.unknown ++ x.unknown }

def mergeDeviceCodeSession (m x : DeviceCodeSession) : DeviceCodeSession :=
  { client := mergeOpt mergeClient {} m.client x.client, issuer := later [] m.issuer x.issuer,
    expiresAt := later 0 m.expiresAt x.expiresAt,
    request := mergeOpt mergeDeviceAuthorizationRequest {} m.request x.request, status := later 0 m.status x.status,
    deviceCode := later [] m.deviceCode x.deviceCode, confirmationCode := later [] m.confirmationCode x.confirmationCode,
    subject := x.subject.or m.subject, scope := x.scope.or m.scope, audience := x.audience.or m.audience,
    unknown := m.unknown ++ x.unknown }

def mergeIntrospectRequest (m x : IntrospectRequest) : IntrospectRequest :=
  { issuer := later [] m.issuer x.issuer, client := mergeOpt mergeClient {} m.client x.client,
    token := later [] m.token x.token, tokenTypeHint := x.tokenTypeHint.or m.tokenTypeHint,
    unknown := m.unknown ++ x.unknown }

def mergeIntrospectResponse (m x : IntrospectResponse) : IntrospectResponse :=
  { error := mergeOpt mergeError {} m.error x.error, token := mergeOpt mergeToken {} m.token x.token,
    unknown := m.unknown ++ x.unknown }

def mergeRevokeRequest (m x : RevokeRequest) : RevokeRequest :=
  { issuer := later [] m.issuer x.issuer, client := mergeOpt mergeClient {} m.client x.client,
    token := later [] m.token x.token, tokenTypeHint := x.tokenTypeHint.or m.tokenTypeHint,
    unknown := m.unknown ++ x.unknown }

def mergeRevokeResponse (m x : RevokeResponse) : RevokeResponse :=
  { error := mergeOpt mergeError {} m.error x.error, unknown := m.unknown ++ x.unknown }

def mergeOAuthTokenResponse (m x : OAuthTokenResponse) : OAuthTokenResponse :=
  { accessToken := later [] m.accessToken x.accessToken, tokenType := later [] m.tokenType x.tokenType,
    expiresIn := later 0 m.expiresIn x.expiresIn, refreshToken := x.refreshToken.or m.refreshToken,
    idToken := x.idToken.or m.idToken, unknown := m.unknown ++ x.unknown }

/-- The `oneof` of a token request. -/
def mergeGrant : Option Grant → Option Grant → Option Grant
  | a, none => a
  | some (.authorizationCode a), some (.authorizationCode b) => some (.authorizationCode (mergeGrantAuthorizationCode a b))
  | some (.clientCredentials a), some (.clientCredentials b) => some (.clientCredentials (mergeGrantClientCredentials a b))
  | some (.deviceCode a), some (.deviceCode b) => some (.deviceCode (mergeGrantDeviceCode a b))
  | some (.refreshToken a), some (.refreshToken b) => some (.refreshToken (mergeGrantRefreshToken a b))
  | some (.tokenExchange a), some (.tokenExchange b) => some (.tokenExchange (mergeGrantTokenExchange a b))
  | _, some b => some b

def mergeTokenRequest (m x : TokenRequest) : TokenRequest :=
  { issuer := later [] m.issuer x.issuer, client := mergeOpt mergeClient {} m.client x.client,
    grantType := later [] m.grantType x.grantType, scope := x.scope.or m.scope,
    tokenConfirmation := mergeOpt mergeTokenConfirmation {} m.tokenConfirmation x.tokenConfirmation,
    resource := m.resource ++ x.resource, audience := x.audience.or m.audience, grant := mergeGrant m.grant x.grant,
    unknown := m.unknown ++ x.unknown }

def mergeClientMeta (m x : ClientMeta) : ClientMeta :=
  { applicationType := x.applicationType.or m.applicationType, redirectUris := m.redirectUris ++ x.redirectUris,
    tokenEndpointAuthMethod := x.tokenEndpointAuthMethod.or m.tokenEndpointAuthMethod,
    grantTypes := m.grantTypes ++ x.grantTypes, responseTypes := m.responseTypes ++ x.responseTypes,
    clientName := x.clientName.or m.clientName, clientNameI18N := mergeMap m.clientNameI18N x.clientNameI18N,
    clientUri := x.clientUri.or m.clientUri, logoUri := x.logoUri.or m.logoUri,
    logoUriI18N := mergeMap m.logoUriI18N x.logoUriI18N, scope := x.scope.or m.scope,
    contacts := m.contacts ++ x.contacts, tosUri := x.tosUri.or m.tosUri,
    tosUriI18N := mergeMap m.tosUriI18N x.tosUriI18N, policyUri := x.policyUri.or m.policyUri,
    policyUriI18N := mergeMap m.policyUriI18N x.policyUriI18N, jwkUri := x.jwkUri.or m.jwkUri, jwks := x.jwks.or m.jwks,
    softwareId := x.softwareId.or m.softwareId, softwareVersion := x.softwareVersion.or m.softwareVersion,
    softwareStatement := x.softwareStatement.or m.softwareStatement, subjectType := x.subjectType.or m.subjectType,
    sectorIdentifier := x.sectorIdentifier.or m.sectorIdentifier,
    tlsClientAuthSubjectDn := x.tlsClientAuthSubjectDn.or m.tlsClientAuthSubjectDn,
    tlsClientAuthSanDns := x.tlsClientAuthSanDns.or m.tlsClientAuthSanDns,
    tlsClientAuthSanUri := x.tlsClientAuthSanUri.or m.tlsClientAuthSanUri,
    tlsClientAuthSanIp := x.tlsClientAuthSanIp.or m.tlsClientAuthSanIp,
    tlsClientAuthSanEmail := x.tlsClientAuthSanEmail.or m.tlsClientAuthSanEmail,
    tlsClientCertificateBoundAccessTokens := x.tlsClientCertificateBoundAccessTokens.or m.tlsClientCertificateBoundAccessTokens,
    introspectionSignedResponseAlg := x.introspectionSignedResponseAlg.or m.introspectionSignedResponseAlg,
    introspectionEncryptedResponseAlg := x.introspectionEncryptedResponseAlg.or m.introspectionEncryptedResponseAlg,
    introspectionEncryptedResponseEnc := x.introspectionEncryptedResponseEnc.or m.introspectionEncryptedResponseEnc,
    responseModes := m.responseModes ++ x.responseModes,
    requirePushedAuthorizationRequests := x.requirePushedAuthorizationRequests.or m.requirePushedAuthorizationRequests,
    requireSignedRequestObject := x.requireSignedRequestObject.or m.requireSignedRequestObject,
    dpopBoundAccessTokens := x.dpopBoundAccessTokens.or m.dpopBoundAccessTokens, unknown := m.unknown ++ x.unknown }

def mergeRegisterRequest (m x : RegisterRequest) : RegisterRequest :=
  { metadata := mergeOpt mergeClientMeta {} m.metadata x.metadata, unknown := m.unknown ++ x.unknown }

end Verif.Spec.Proto
