import Verif.Model.Pb

/-!
The binary encoding of protocol buffers (proto3) and the messages of `proto/oidc`: what a
message is to be written as, by the `.proto` files and not by the generated code. Field
numbers, types and labels are those of the `.proto` files.
-/
namespace Verif.Spec.Proto
open Verif.Pb

/-- Base 128, the lowest seven bits first; all bytes but the last have the high bit set. -/
def base128 (n : Nat) : Str :=
  if n < 128 then [UInt8.ofNat n] else UInt8.ofNat (128 + n % 128) :: base128 (n / 128)
decreasing_by omega

/-- A value of a field. A message is given as it is encoded; an enumeration by its 32 bits. -/
inductive Value where
  | string (s : Str)
  | bytes (s : Str)
  | fixed64 (x : UInt64)
  | uint64 (x : UInt64)
  | enum (x : UInt32)
  | bool (b : Bool)
  | message (s : Str)

/-- 0 is a varint, 1 are eight bytes, 2 is a length and that many bytes. -/
def Value.wireType : Value → Nat
  | .uint64 _ | .enum _ | .bool _ => 0
  | .fixed64 _ => 1
  | .string _ | .bytes _ | .message _ => 2

/-- A negative number of an enumeration is extended to 64 bits; eight bytes are written with
the lowest first. -/
def Value.payload : Value → Str
  | .uint64 x => base128 x.toNat
  | .enum x => base128 (x.toBitVec.signExtend 64).toNat
  | .bool b => [if b then 1 else 0]
  | .fixed64 x => [x, x >>> 8, x >>> 16, x >>> 24, x >>> 32, x >>> 40, x >>> 48, x >>> 56].map UInt64.toUInt8
  | .string s | .bytes s | .message s => base128 s.length ++ s

/-- The value that a field without presence has when it is not written. -/
def Value.IsDefault : Value → Prop
  | .string s | .bytes s => s = []
  | .fixed64 x | .uint64 x => x = 0
  | .enum x => x = 0
  | .bool b => b = false
  | .message _ => False

instance : DecidablePred Value.IsDefault := fun v => by cases v <;> unfold Value.IsDefault <;> infer_instance

/-- A number and a value. -/
def record (num : Nat) (v : Value) : Str := base128 (num * 8 + v.wireType) ++ v.payload

/-- What a field holds, by its label. -/
inductive Field where
  | implicit (v : Value)
  | optional (v : Option Value)
  | repeated (l : List Value)

/-- The records of a field: none for the default value of a field without presence. -/
def Field.write (num : Nat) : Field → Str
  | .implicit v => if v.IsDefault then [] else record num v
  | .optional none => []
  | .optional (some v) => record num v
  | .repeated l => l.flatMap (record num)

/-- A message: its fields by ascending number, then the fields that are not known. -/
def encode (fields : List (Nat × Field)) (unknown : Str) : Str := fields.flatMap (fun f => f.2.write f.1) ++ unknown

/-- proto/oidc/client/v1/client_api.proto:40-45. -/
def authenticateRequest (m : AuthenticateRequest) : Str :=
  encode [(1, .optional (m.clientId.map fun x => .string x)),
    (2, .optional (m.clientSecret.map fun x => .string x)),
    (3, .optional (m.clientAssertionType.map fun x => .string x)),
    (4, .optional (m.clientAssertion.map fun x => .string x))] m.unknown

/-- proto/oidc/core/v1/error.proto:25-38. -/
def error (m : Error) : Str :=
  encode [(1, .implicit (.string m.err)),
    (2, .implicit (.string m.errorDescription)),
    (3, .optional (m.errorUri.map fun x => .string x)),
    (4, .optional (m.state.map fun x => .string x)),
    (5, .optional (m.resource.map fun x => .string x))] m.unknown

/-- proto/oidc/client/v1/client.proto:83-113. -/
def client (m : Client) : Str :=
  encode [(1, .implicit (.string m.clientId)),
    (2, .implicit (.enum m.clientType)),
    (3, .repeated (m.redirectUris.map fun x => .string x)),
    (4, .repeated (m.responseTypes.map fun x => .string x)),
    (5, .repeated (m.responseModes.map fun x => .string x)),
    (6, .repeated (m.grantTypes.map fun x => .string x)),
    (7, .implicit (.string m.applicationType)),
    (8, .repeated (m.contacts.map fun x => .string x)),
    (9, .implicit (.string m.clientName)),
    (10, .implicit (.string m.logoUri)),
    (11, .implicit (.string m.clientUri)),
    (12, .implicit (.string m.policyUri)),
    (13, .implicit (.string m.tosUri)),
    (14, .implicit (.string m.jwksUri)),
    (15, .implicit (.bytes m.jwks)),
    (16, .implicit (.bytes m.clientSecret)),
    (17, .implicit (.string m.subjectType)),
    (18, .implicit (.string m.sectorIdentifier)),
    (19, .implicit (.string m.tokenEndpointAuthMethod)),
    (20, .implicit (.string m.tlsClientAuthSubjectDn)),
    (21, .implicit (.string m.tlsClientAuthSanDns)),
    (22, .implicit (.string m.tlsClientAuthSanUri)),
    (23, .implicit (.string m.tlsClientAuthSanIp)),
    (24, .implicit (.string m.tlsClientAuthSanEmail)),
    (25, .implicit (.bool m.tlsClientCertificateBoundAccessTokens)),
    (26, .implicit (.bool m.requirePushedAuthorizationRequests)),
    (27, .implicit (.bool m.requireSignedRequestObject)),
    (28, .implicit (.bool m.dpopBoundAccessTokens))] m.unknown

/-- proto/oidc/client/v1/client_api.proto:47-50. -/
def authenticateResponse (m : AuthenticateResponse) : Str :=
  encode [(1, .optional (m.error.map fun x => .message (error x))),
    (2, .optional (m.client.map fun x => .message (client x)))] m.unknown

/-- proto/oidc/client/v1/client_api.proto:59-62. -/
def registerResponse (m : RegisterResponse) : Str :=
  encode [(1, .optional (m.error.map fun x => .message (error x))),
    (2, .optional (m.client.map fun x => .message (client x)))] m.unknown

/-- proto/oidc/client/v1/client.proto:155-157. -/
def softwareStatement (m : SoftwareStatement) : Str :=
  encode [(1, .implicit (.string m.softwareId))] m.unknown

/-- proto/oidc/discovery/v1/resource.proto:26-81. -/
def protectedResourceMetadata (m : ProtectedResourceMetadata) : Str :=
  encode [(1, .implicit (.string m.resource)),
    (2, .repeated (m.authorizationServers.map fun x => .string x)),
    (3, .optional (m.jwksUri.map fun x => .string x)),
    (4, .repeated (m.scopesProvided.map fun x => .string x)),
    (5, .repeated (m.bearerMethodsSupported.map fun x => .string x)),
    (6, .repeated (m.resourceSigningAlgValuesSupported.map fun x => .string x)),
    (7, .repeated (m.resourceEncryptionAlgValuesSupported.map fun x => .string x)),
    (8, .repeated (m.resourceEncryptionEncValuesSupported.map fun x => .string x)),
    (9, .optional (m.resourceDocumentation.map fun x => .string x)),
    (10, .optional (m.resourcePolicyUri.map fun x => .string x)),
    (11, .optional (m.resourceTosUri.map fun x => .string x)),
    (12, .optional (m.signedMetadata.map fun x => .string x))] m.unknown

/-- proto/oidc/discovery/v1/server.proto:388-394. -/
def mTLSEndpoints (m : MTLSEndpoints) : Str :=
  encode [(1, .implicit (.string m.tokenEndpoint)),
    (2, .implicit (.string m.revocationEndpoint)),
    (3, .implicit (.string m.introspectionEndpoint)),
    (4, .implicit (.string m.pushedAuthorizationRequestEndpoint)),
    (5, .implicit (.string m.deviceAuthorizationEndpoint))] m.unknown

/-- proto/oidc/discovery/v1/server.proto:26-384. -/
def serverMetadata (m : ServerMetadata) : Str :=
  encode [(1, .implicit (.string m.issuer)),
    (2, .implicit (.string m.authorizationEndpoint)),
    (3, .implicit (.string m.tokenEndpoint)),
    (4, .implicit (.string m.jwksUri)),
    (5, .implicit (.string m.userinfoEndpoint)),
    (6, .implicit (.string m.registrationEndpoint)),
    (7, .repeated (m.scopesSupported.map fun x => .string x)),
    (8, .repeated (m.responseTypesSupported.map fun x => .string x)),
    (9, .repeated (m.responseModesSupported.map fun x => .string x)),
    (10, .repeated (m.grantTypesSupported.map fun x => .string x)),
    (11, .repeated (m.acrValuesSupported.map fun x => .string x)),
    (12, .repeated (m.subjectTypesSupported.map fun x => .string x)),
    (13, .repeated (m.idTokenSigningAlgValuesSupported.map fun x => .string x)),
    (14, .repeated (m.idTokenEncryptionAlgValuesSupported.map fun x => .string x)),
    (15, .repeated (m.idTokenEncryptionEncValuesSupported.map fun x => .string x)),
    (16, .repeated (m.userinfoSigningAlgValuesSupported.map fun x => .string x)),
    (17, .repeated (m.userinfoEncryptionAlgValuesSupported.map fun x => .string x)),
    (18, .repeated (m.userinfoEncryptionEncValuesSupported.map fun x => .string x)),
    (19, .repeated (m.requestObjectSigningAlgValuesSupported.map fun x => .string x)),
    (20, .repeated (m.requestObjectEncryptionAlgValuesSupported.map fun x => .string x)),
    (21, .repeated (m.requestObjectEncryptionEncValuesSupported.map fun x => .string x)),
    (22, .repeated (m.tokenEndpointAuthMethodsSupported.map fun x => .string x)),
    (23, .repeated (m.tokenEndpointAuthSigningAlgValuesSupported.map fun x => .string x)),
    (24, .repeated (m.displayValuesSupported.map fun x => .string x)),
    (25, .repeated (m.claimTypesSupported.map fun x => .string x)),
    (26, .repeated (m.claimsSupported.map fun x => .string x)),
    (27, .implicit (.string m.serviceDocumentation)),
    (28, .repeated (m.claimsLocalesSupported.map fun x => .string x)),
    (29, .repeated (m.uiLocalesSupported.map fun x => .string x)),
    (30, .implicit (.bool m.claimsParameterSupported)),
    (31, .implicit (.bool m.requestParameterSupported)),
    (32, .implicit (.bool m.requestUriParameterSupported)),
    (33, .implicit (.bool m.requireRequestUriRegistration)),
    (34, .implicit (.string m.opPolicyUri)),
    (35, .implicit (.string m.opTosUri)),
    (36, .implicit (.string m.revocationEndpoint)),
    (37, .repeated (m.revocationEndpointAuthMethodsSupported.map fun x => .string x)),
    (38, .repeated (m.revocationEndpointAuthSigningAlgValuesSupported.map fun x => .string x)),
    (39, .implicit (.string m.introspectionEndpoint)),
    (40, .repeated (m.introspectionEndpointAuthMethodsSupported.map fun x => .string x)),
    (41, .repeated (m.introspectionEndpointAuthSigningAlgValuesSupported.map fun x => .string x)),
    (42, .repeated (m.codeChallengeMethodsSupported.map fun x => .string x)),
    (43, .implicit (.string m.pushedAuthorizationRequestEndpoint)),
    (44, .repeated (m.pushedAuthorizationRequestEndpointAuthMethodsSupported.map fun x => .string x)),
    (45, .optional (m.mtlsEndpointAliases.map fun x => .message (mTLSEndpoints x))),
    (46, .implicit (.string m.deviceAuthorizationEndpoint)),
    (47, .repeated (m.dpopSigningAlgValuesSupported.map fun x => .string x)),
    (48, .implicit (.bool m.tlsClientCertificateBoundAccessTokens)),
    (49, .repeated (m.authorizationSigningAlgValuesSupported.map fun x => .string x)),
    (50, .repeated (m.authorizationEncryptionAlgValuesSupported.map fun x => .string x)),
    (51, .repeated (m.authorizationEncryptionEncValuesSupported.map fun x => .string x)),
    (52, .implicit (.bool m.authorizationResponseIssParameterSupported)),
    (53, .repeated (m.introspectionSigningAlgValuesSupported.map fun x => .string x)),
    (54, .repeated (m.introspectionEncryptionAlgValuesSupported.map fun x => .string x)),
    (55, .repeated (m.introspectionEncryptionEncValuesSupported.map fun x => .string x)),
    (56, .implicit (.string m.signedMetadata))] m.unknown

/-- proto/oidc/flow/v1/flow.proto:28-189. -/
def authorizationRequest (m : AuthorizationRequest) : Str :=
  encode [(1, .implicit (.string m.scope)),
    (2, .implicit (.string m.responseType)),
    (3, .implicit (.string m.clientId)),
    (4, .implicit (.string m.redirectUri)),
    (5, .implicit (.string m.state)),
    (6, .optional (m.responseMode.map fun x => .string x)),
    (7, .implicit (.string m.nonce)),
    (8, .optional (m.display.map fun x => .string x)),
    (9, .optional (m.prompt.map fun x => .string x)),
    (10, .optional (m.maxAge.map fun x => .uint64 x)),
    (11, .optional (m.uiLocales.map fun x => .string x)),
    (12, .optional (m.idTokenHint.map fun x => .string x)),
    (13, .optional (m.acrValues.map fun x => .string x)),
    (14, .optional (m.request.map fun x => .string x)),
    (15, .optional (m.requestUri.map fun x => .string x)),
    (16, .implicit (.string m.codeChallenge)),
    (17, .implicit (.string m.codeChallengeMethod)),
    (18, .implicit (.string m.audience)),
    (19, .optional (m.dpopProof.map fun x => .string x)),
    (20, .repeated (m.resource.map fun x => .string x)),
    (21, .optional (m.iss.map fun x => .string x)),
    (22, .optional (m.loginHintToken.map fun x => .string x)),
    (23, .optional (m.loginHint.map fun x => .string x))] m.unknown

/-- proto/oidc/flow/v1/flow_api.proto:39-51. -/
def authorizeRequest (m : AuthorizeRequest) : Str :=
  encode [(1, .implicit (.string m.issuer)),
    (2, .optional (m.client.map fun x => .message (client x))),
    (3, .implicit (.string m.subject)),
    (4, .optional (m.request.map fun x => .message (authorizationRequest x)))] m.unknown

/-- proto/oidc/flow/v1/flow_api.proto:54-98. -/
def authorizeResponse (m : AuthorizeResponse) : Str :=
  encode [(1, .optional (m.error.map fun x => .message (error x))),
    (2, .implicit (.string m.code)),
    (3, .implicit (.string m.state)),
    (4, .implicit (.string m.redirectUri)),
    (5, .implicit (.string m.clientId)),
    (6, .implicit (.fixed64 m.expiresIn)),
    (7, .implicit (.string m.issuer)),
    (8, .implicit (.string m.responseMode))] m.unknown

/-- proto/oidc/token/v1/token.proto:104-106. -/
def tokenConfirmation (m : TokenConfirmation) : Str :=
  encode [(1, .implicit (.string m.jkt))] m.unknown

/-- proto/oidc/flow/v1/flow_api.proto:100-112. -/
def registrationRequest (m : RegistrationRequest) : Str :=
  encode [(1, .implicit (.string m.issuer)),
    (2, .optional (m.client.map fun x => .message (client x))),
    (3, .optional (m.request.map fun x => .message (authorizationRequest x))),
    (4, .optional (m.confirmation.map fun x => .message (tokenConfirmation x)))] m.unknown

/-- proto/oidc/flow/v1/flow_api.proto:114-135. -/
def registrationResponse (m : RegistrationResponse) : Str :=
  encode [(1, .optional (m.error.map fun x => .message (error x))),
    (2, .implicit (.string m.requestUri)),
    (3, .implicit (.fixed64 m.expiresIn)),
    (4, .implicit (.string m.issuer))] m.unknown

/-- proto/oidc/token/v1/token.proto:41-68. -/
def tokenMeta (m : TokenMeta) : Str :=
  encode [(1, .implicit (.string m.issuer)),
    (2, .implicit (.string m.subject)),
    (3, .implicit (.fixed64 m.issuedAt)),
    (4, .implicit (.fixed64 m.notBefore)),
    (5, .implicit (.fixed64 m.expiresAt)),
    (6, .implicit (.string m.clientId)),
    (7, .implicit (.string m.scope)),
    (8, .implicit (.string m.audience)),
    (9, .optional (m.acr.map fun x => .string x)),
    (10, .optional (m.authTime.map fun x => .fixed64 x))] m.unknown

/-- proto/oidc/token/v1/token.proto:70-79. -/
def actor : Actor → Str
  | { issuer, subject, clientId, act, unknown } =>
    encode [(1, .implicit (.string issuer)),
      (2, .implicit (.string subject)),
      (3, .implicit (.string clientId)),
      (4, .optional (optActor act))] unknown
where
  /-- The actor that an actor names. -/
  optActor : Option Actor → Option Value
    | none => none
    | some x => some (.message (actor x))

/-- proto/oidc/token/v1/token.proto:81-102. -/
def token (m : Token) : Str :=
  encode [(1, .implicit (.string m.issuer)),
    (2, .implicit (.enum m.tokenType)),
    (3, .implicit (.string m.tokenId)),
    (4, .optional (m.metadata.map fun x => .message (tokenMeta x))),
    (5, .implicit (.enum m.status)),
    (6, .implicit (.string m.value)),
    (7, .optional (m.phantom.map fun x => .string x)),
    (8, .optional (m.confirmation.map fun x => .message (tokenConfirmation x))),
    (9, .repeated (m.actor.map fun x => .message (actor x))),
    (10, .repeated (m.mayAct.map fun x => .message (actor x)))] m.unknown

/-- proto/oidc/flow/v1/flow_api.proto:204-220. -/
def tokenResponse (m : TokenResponse) : Str :=
  encode [(1, .optional (m.error.map fun x => .message (error x))),
    (2, .optional (m.accessToken.map fun x => .message (token x))),
    (3, .optional (m.refreshToken.map fun x => .message (token x))),
    (4, .optional (m.idToken.map fun x => .message (token x))),
    (5, .implicit (.string m.issuer)),
    (6, .optional (m.issuedTokenType.map fun x => .string x)),
    (7, .optional (m.scope.map fun x => .string x))] m.unknown

/-- proto/oidc/flow/v1/flow_api.proto:223-238. -/
def deviceAuthorizationRequest (m : DeviceAuthorizationRequest) : Str :=
  encode [(1, .implicit (.string m.issuer)),
    (2, .implicit (.string m.clientId)),
    (3, .optional (m.scope.map fun x => .string x)),
    (4, .optional (m.audience.map fun x => .string x))] m.unknown

/-- proto/oidc/flow/v1/flow_api.proto:241-264. -/
def deviceAuthorizationResponse (m : DeviceAuthorizationResponse) : Str :=
  encode [(1, .optional (m.error.map fun x => .message (error x))),
    (2, .implicit (.string m.deviceCode)),
    (3, .implicit (.string m.userCode)),
    (4, .implicit (.string m.verificationUri)),
    (5, .optional (m.verificationUriComplete.map fun x => .string x)),
    (6, .implicit (.fixed64 m.expiresIn)),
    (7, .implicit (.fixed64 m.interval)),
    (8, .implicit (.string m.issuer))] m.unknown

/-- proto/oidc/flow/v1/flow_api.proto:266-273. -/
def deviceCodeValidationRequest (m : DeviceCodeValidationRequest) : Str :=
  encode [(1, .implicit (.string m.issuer)),
    (2, .implicit (.string m.userCode)),
    (3, .implicit (.string m.subject))] m.unknown

/-- proto/oidc/flow/v1/flow_api.proto:275-277. -/
def deviceCodeValidationResponse (m : DeviceCodeValidationResponse) : Str :=
  encode [(1, .optional (m.error.map fun x => .message (error x)))] m.unknown

/-- proto/oidc/flow/v1/token_grant.proto:26-33. -/
def grantAuthorizationCode (m : GrantAuthorizationCode) : Str :=
  encode [(1, .implicit (.string m.code)),
    (2, .implicit (.string m.redirectUri)),
    (3, .implicit (.string m.codeVerifier)),
    (4, .optional (m.dpopJkt.map fun x => .string x))] m.unknown

/-- proto/oidc/flow/v1/token_grant.proto:35-37. -/
def grantRefreshToken (m : GrantRefreshToken) : Str :=
  encode [(1, .implicit (.string m.refreshToken))] m.unknown

/-- proto/oidc/flow/v1/token_grant.proto:40-49. -/
def grantDeviceCode (m : GrantDeviceCode) : Str :=
  encode [(1, .implicit (.string m.deviceCode)),
    (2, .implicit (.string m.clientId))] m.unknown

/-- proto/oidc/flow/v1/token_grant.proto:51-51. -/
def grantClientCredentials (m : GrantClientCredentials) : Str :=
  encode [] m.unknown

/-- proto/oidc/flow/v1/token_grant.proto:54-85. -/
def grantTokenExchange (m : GrantTokenExchange) : Str :=
  encode [(1, .optional (m.requestedTokenType.map fun x => .string x)),
    (2, .implicit (.string m.subjectToken)),
    (3, .implicit (.string m.subjectTokenType)),
    (4, .optional (m.actorToken.map fun x => .string x)),
    (5, .optional (m.actorTokenType.map fun x => .string x))] m.unknown

/-- proto/oidc/resource/v1/resource.proto:26-30. -/
def resource (m : Resource) : Str :=
  encode [(1, .implicit (.string m.urn)),
    (2, .implicit (.string m.description)),
    (3, .repeated (m.urls.map fun x => .string x))] m.unknown

/-- proto/oidc/session/v1/session.proto:28-33. -/
def authorizationCodeSession (m : AuthorizationCodeSession) : Str :=
  encode [(1, .optional (m.client.map fun x => .message (client x))),
    (2, .implicit (.string m.issuer)),
    (3, .implicit (.string m.subject)),
    (4, .optional (m.request.map fun x => .message (authorizationRequest x)))] m.unknown

/-- proto/oidc/session/v1/session.proto:43-54. -/
def deviceCodeSession (m : DeviceCodeSession) : Str :=
  encode [(1, .optional (m.client.map fun x => .message (client x))),
    (2, .implicit (.string m.issuer)),
    (3, .implicit (.fixed64 m.expiresAt)),
    (4, .optional (m.request.map fun x => .message (deviceAuthorizationRequest x))),
    (5, .implicit (.enum m.status)),
    (6, .implicit (.string m.deviceCode)),
    (7, .implicit (.string m.confirmationCode)),
    (8, .optional (m.subject.map fun x => .string x)),
    (9, .optional (m.scope.map fun x => .string x)),
    (10, .optional (m.audience.map fun x => .string x))] m.unknown

/-- proto/oidc/token/v1/introspection_api.proto:37-62. -/
def introspectRequest (m : IntrospectRequest) : Str :=
  encode [(1, .implicit (.string m.issuer)),
    (2, .optional (m.client.map fun x => .message (client x))),
    (3, .implicit (.string m.token)),
    (4, .optional (m.tokenTypeHint.map fun x => .string x))] m.unknown

/-- proto/oidc/token/v1/introspection_api.proto:65-69. -/
def introspectResponse (m : IntrospectResponse) : Str :=
  encode [(1, .optional (m.error.map fun x => .message (error x))),
    (2, .optional (m.token.map fun x => .message (token x)))] m.unknown

/-- proto/oidc/token/v1/revocation_api.proto:36-56. -/
def revokeRequest (m : RevokeRequest) : Str :=
  encode [(1, .implicit (.string m.issuer)),
    (2, .optional (m.client.map fun x => .message (client x))),
    (3, .implicit (.string m.token)),
    (4, .optional (m.tokenTypeHint.map fun x => .string x))] m.unknown

/-- proto/oidc/token/v1/revocation_api.proto:58-60. -/
def revokeResponse (m : RevokeResponse) : Str :=
  encode [(1, .optional (m.error.map fun x => .message (error x)))] m.unknown

/-- proto/oidc/token/v1/token.proto:108-114. -/
def oAuthTokenResponse (m : OAuthTokenResponse) : Str :=
  encode [(1, .implicit (.string m.accessToken)),
    (2, .implicit (.string m.tokenType)),
    (3, .implicit (.fixed64 m.expiresIn)),
    (4, .optional (m.refreshToken.map fun x => .string x)),
    (5, .optional (m.idToken.map fun x => .string x))] m.unknown

/-- proto/oidc/flow/v1/flow_api.proto:137-202. -/
def tokenRequest (m : TokenRequest) : Str :=
  encode [(1, .implicit (.string m.issuer)),
    (2, .optional (m.client.map fun x => .message (client x))),
    (3, .implicit (.string m.grantType)),
    (4, .optional (m.scope.map fun x => .string x)),
    (5, .optional (m.tokenConfirmation.map fun x => .message (tokenConfirmation x))),
    (6, .repeated (m.resource.map fun x => .string x)),
    (7, .optional (m.audience.map fun x => .string x)),
    (10, .optional (match m.grant with | some (.authorizationCode x) => some (.message (grantAuthorizationCode x)) | _ => none)),
    (11, .optional (match m.grant with | some (.clientCredentials x) => some (.message (grantClientCredentials x)) | _ => none)),
    (12, .optional (match m.grant with | some (.deviceCode x) => some (.message (grantDeviceCode x)) | _ => none)),
    (13, .optional (match m.grant with | some (.refreshToken x) => some (.message (grantRefreshToken x)) | _ => none)),
    (14, .optional (match m.grant with | some (.tokenExchange x) => some (.message (grantTokenExchange x)) | _ => none))] m.unknown

end Verif.Spec.Proto
