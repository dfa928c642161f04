import Verif.Model.Client
import Verif.Model.Pb

/-!
What the example server publishes about itself and how errors are written:
`examples/authorizationserver/handlers/metadata.go`, `handlers/jwks.go`, `respond/helpers.go`,
`main.go`, `sdk/rfcerrors`, the JSON codec of `corev1.Error` and `discoveryv1.ServerMetadata`
(`*.pb.json.go`), and the constructor of the client library (`client/http.go`).

`protojson` is modelled on parsed JSON objects, given as the list of their members.
-/
namespace Verif.Discovery
open Verif.Jose Verif.Sign

/-! ### JSON -/

/-- A JSON value, as far as these messages can hold it: `strs` is an array of strings,
`other` a number or an array of something else. -/
inductive JVal where
  | null
  | bool (b : Bool)
  | str (s : Str)
  | strs (l : List Str)
  | msg (m : List (Str × JVal))
  | other

/-- A field of a message: its name in the proto file, its JSON name, and how a value is
stored (`none` is the error of a value of the wrong kind). -/
structure Field (M : Type) where
  proto : Str
  json : Str
  set : JVal → M → Option M

variable {M S : Type}

def onStr (f : Str → M → M) : JVal → M → Option M
  | .str s, m => some (f s m)
  | _, _ => none

def onStrs (f : List Str → M → M) : JVal → M → Option M
  | .strs l, m => some (f l m)
  | _, _ => none

def onBool (f : Bool → M → M) : JVal → M → Option M
  | .bool b, m => some (f b m)
  | _, _ => none

def onMsg (get : M → S) (put : S → M → M) (dec : S → List (Str × JVal) → Option S) : JVal → M → Option M
  | .msg o, m => (dec (get m) o).map fun s => put s m
  | _, _ => none

/-- `protojson.UnmarshalOptions{DiscardUnknown: true}`: members in order; unknown names are
skipped, a field given twice is an error, `null` leaves a field as it is. -/
def members (fields : List (Field M)) : List Str → M → List (Str × JVal) → Option M
  | _, m, [] => some m
  | seen, m, (k, v) :: o =>
    match fields.find? (fun f => f.json = k ∨ f.proto = k) with
    | none => members fields seen m o
    | some f =>
      if f.proto ∈ seen then none
      else match v with
        | .null => members fields (f.proto :: seen) m o
        | v => (f.set v m).bind fun m => members fields (f.proto :: seen) m o

/-! #### `corev1.Error` (api/oidc/core/v1/error.pb.json.go) -/

/-- 11-17 `MarshalJSON`: names of the proto file, empty texts are written, unset optional
fields are not. -/
def Error.toJson (m : Pb.Error) : List (Str × JVal) :=
  [(g!"err", .str m.err), (g!"error_description", .str m.errorDescription)] ++
    (m.errorUri.map fun s => (g!"error_uri", JVal.str s)).toList ++
    (m.state.map fun s => (g!"state", JVal.str s)).toList ++
    (m.resource.map fun s => (g!"resource", JVal.str s)).toList

def Error.jsonFields : List (Field Pb.Error) :=
  [⟨g!"err", g!"err", onStr fun s m => { m with err := s }⟩,
   ⟨g!"error_description", g!"errorDescription", onStr fun s m => { m with errorDescription := s }⟩,
   ⟨g!"error_uri", g!"errorUri", onStr fun s m => { m with errorUri := some s }⟩,
   ⟨g!"state", g!"state", onStr fun s m => { m with state := some s }⟩,
   ⟨g!"resource", g!"resource", onStr fun s m => { m with resource := some s }⟩]

/-- 20-24 `UnmarshalJSON`, which resets the message first. -/
def Error.ofJson (o : List (Str × JVal)) : Option Pb.Error := members Error.jsonFields [] {} o

/-! #### `discoveryv1.ServerMetadata` (api/oidc/discovery/v1/server.pb.json.go) -/

/-- 27-33 `MarshalJSON`. -/
def MTLSEndpoints.toJson (m : Pb.MTLSEndpoints) : List (Str × JVal) :=
  [(g!"token_endpoint", .str m.tokenEndpoint),
   (g!"revocation_endpoint", .str m.revocationEndpoint),
   (g!"introspection_endpoint", .str m.introspectionEndpoint),
   (g!"pushed_authorization_request_endpoint", .str m.pushedAuthorizationRequestEndpoint),
   (g!"device_authorization_endpoint", .str m.deviceAuthorizationEndpoint)]

def MTLSEndpoints.jsonFields : List (Field Pb.MTLSEndpoints) :=
  [⟨g!"token_endpoint", g!"tokenEndpoint", onStr fun x m => { m with tokenEndpoint := x }⟩,
   ⟨g!"revocation_endpoint", g!"revocationEndpoint", onStr fun x m => { m with revocationEndpoint := x }⟩,
   ⟨g!"introspection_endpoint", g!"introspectionEndpoint", onStr fun x m => { m with introspectionEndpoint := x }⟩,
   ⟨g!"pushed_authorization_request_endpoint", g!"pushedAuthorizationRequestEndpoint", onStr fun x m => { m with pushedAuthorizationRequestEndpoint := x }⟩,
   ⟨g!"device_authorization_endpoint", g!"deviceAuthorizationEndpoint", onStr fun x m => { m with deviceAuthorizationEndpoint := x }⟩]

def MTLSEndpoints.ofJson (m : Pb.MTLSEndpoints) (o : List (Str × JVal)) : Option Pb.MTLSEndpoints :=
  members MTLSEndpoints.jsonFields [] m o

/-- 11-17 `MarshalJSON`: everything is written, with `null` for a missing message. -/
def ServerMetadata.toJson (m : Pb.ServerMetadata) : List (Str × JVal) :=
  [(g!"issuer", .str m.issuer),
   (g!"authorization_endpoint", .str m.authorizationEndpoint),
   (g!"token_endpoint", .str m.tokenEndpoint),
   (g!"jwks_uri", .str m.jwksUri),
   (g!"userinfo_endpoint", .str m.userinfoEndpoint),
   (g!"registration_endpoint", .str m.registrationEndpoint),
   (g!"scopes_supported", .strs m.scopesSupported),
   (g!"response_types_supported", .strs m.responseTypesSupported),
   (g!"response_modes_supported", .strs m.responseModesSupported),
   (g!"grant_types_supported", .strs m.grantTypesSupported),
   (g!"acr_values_supported", .strs m.acrValuesSupported),
   (g!"subject_types_supported", .strs m.subjectTypesSupported),
   (g!"id_token_signing_alg_values_supported", .strs m.idTokenSigningAlgValuesSupported),
   (g!"id_token_encryption_alg_values_supported", .strs m.idTokenEncryptionAlgValuesSupported),
   (g!"id_token_encryption_enc_values_supported", .strs m.idTokenEncryptionEncValuesSupported),
   (g!"userinfo_signing_alg_values_supported", .strs m.userinfoSigningAlgValuesSupported),
   (g!"userinfo_encryption_alg_values_supported", .strs m.userinfoEncryptionAlgValuesSupported),
   (g!"userinfo_encryption_enc_values_supported", .strs m.userinfoEncryptionEncValuesSupported),
   (g!"request_object_signing_alg_values_supported", .strs m.requestObjectSigningAlgValuesSupported),
   (g!"request_object_encryption_alg_values_supported", .strs m.requestObjectEncryptionAlgValuesSupported),
   (g!"request_object_encryption_enc_values_supported", .strs m.requestObjectEncryptionEncValuesSupported),
   (g!"token_endpoint_auth_methods_supported", .strs m.tokenEndpointAuthMethodsSupported),
   (g!"token_endpoint_auth_signing_alg_values_supported", .strs m.tokenEndpointAuthSigningAlgValuesSupported),
   (g!"display_values_supported", .strs m.displayValuesSupported),
   (g!"claim_types_supported", .strs m.claimTypesSupported),
   (g!"claims_supported", .strs m.claimsSupported),
   (g!"service_documentation", .str m.serviceDocumentation),
   (g!"claims_locales_supported", .strs m.claimsLocalesSupported),
   (g!"ui_locales_supported", .strs m.uiLocalesSupported),
   (g!"claims_parameter_supported", .bool m.claimsParameterSupported),
   (g!"request_parameter_supported", .bool m.requestParameterSupported),
   (g!"request_uri_parameter_supported", .bool m.requestUriParameterSupported),
   (g!"require_request_uri_registration", .bool m.requireRequestUriRegistration),
   (g!"op_policy_uri", .str m.opPolicyUri),
   (g!"op_tos_uri", .str m.opTosUri),
   (g!"revocation_endpoint", .str m.revocationEndpoint),
   (g!"revocation_endpoint_auth_methods_supported", .strs m.revocationEndpointAuthMethodsSupported),
   (g!"revocation_endpoint_auth_signing_alg_values_supported", .strs m.revocationEndpointAuthSigningAlgValuesSupported),
   (g!"introspection_endpoint", .str m.introspectionEndpoint),
   (g!"introspection_endpoint_auth_methods_supported", .strs m.introspectionEndpointAuthMethodsSupported),
   (g!"introspection_endpoint_auth_signing_alg_values_supported", .strs m.introspectionEndpointAuthSigningAlgValuesSupported),
   (g!"code_challenge_methods_supported", .strs m.codeChallengeMethodsSupported),
   (g!"pushed_authorization_request_endpoint", .str m.pushedAuthorizationRequestEndpoint),
   (g!"pushed_authorization_request_endpoint_auth_methods_supported", .strs m.pushedAuthorizationRequestEndpointAuthMethodsSupported),
   (g!"mtls_endpoint_aliases", match m.mtlsEndpointAliases with
     | none => .null
     | some x => .msg (MTLSEndpoints.toJson x)),
   (g!"device_authorization_endpoint", .str m.deviceAuthorizationEndpoint),
   (g!"dpop_signing_alg_values_supported", .strs m.dpopSigningAlgValuesSupported),
   (g!"tls_client_certificate_bound_access_tokens", .bool m.tlsClientCertificateBoundAccessTokens),
   (g!"authorization_signing_alg_values_supported", .strs m.authorizationSigningAlgValuesSupported),
   (g!"authorization_encryption_alg_values_supported", .strs m.authorizationEncryptionAlgValuesSupported),
   (g!"authorization_encryption_enc_values_supported", .strs m.authorizationEncryptionEncValuesSupported),
   (g!"authorization_response_iss_parameter_supported", .bool m.authorizationResponseIssParameterSupported),
   (g!"introspection_signing_alg_values_supported", .strs m.introspectionSigningAlgValuesSupported),
   (g!"introspection_encryption_alg_values_supported", .strs m.introspectionEncryptionAlgValuesSupported),
   (g!"introspection_encryption_enc_values_supported", .strs m.introspectionEncryptionEncValuesSupported),
   (g!"signed_metadata", .str m.signedMetadata)]

def ServerMetadata.jsonFields : List (Field Pb.ServerMetadata) :=
  [⟨g!"issuer", g!"issuer", onStr fun x m => { m with issuer := x }⟩,
   ⟨g!"authorization_endpoint", g!"authorizationEndpoint", onStr fun x m => { m with authorizationEndpoint := x }⟩,
   ⟨g!"token_endpoint", g!"tokenEndpoint", onStr fun x m => { m with tokenEndpoint := x }⟩,
   ⟨g!"jwks_uri", g!"jwksUri", onStr fun x m => { m with jwksUri := x }⟩,
   ⟨g!"userinfo_endpoint", g!"userinfoEndpoint", onStr fun x m => { m with userinfoEndpoint := x }⟩,
   ⟨g!"registration_endpoint", g!"registrationEndpoint", onStr fun x m => { m with registrationEndpoint := x }⟩,
   ⟨g!"scopes_supported", g!"scopesSupported", onStrs fun x m => { m with scopesSupported := x }⟩,
   ⟨g!"response_types_supported", g!"responseTypesSupported", onStrs fun x m => { m with responseTypesSupported := x }⟩,
   ⟨g!"response_modes_supported", g!"responseModesSupported", onStrs fun x m => { m with responseModesSupported := x }⟩,
   ⟨g!"grant_types_supported", g!"grantTypesSupported", onStrs fun x m => { m with grantTypesSupported := x }⟩,
   ⟨g!"acr_values_supported", g!"acrValuesSupported", onStrs fun x m => { m with acrValuesSupported := x }⟩,
   ⟨g!"subject_types_supported", g!"subjectTypesSupported", onStrs fun x m => { m with subjectTypesSupported := x }⟩,
   ⟨g!"id_token_signing_alg_values_supported", g!"idTokenSigningAlgValuesSupported", onStrs fun x m => { m with idTokenSigningAlgValuesSupported := x }⟩,
   ⟨g!"id_token_encryption_alg_values_supported", g!"idTokenEncryptionAlgValuesSupported", onStrs fun x m => { m with idTokenEncryptionAlgValuesSupported := x }⟩,
   ⟨g!"id_token_encryption_enc_values_supported", g!"idTokenEncryptionEncValuesSupported", onStrs fun x m => { m with idTokenEncryptionEncValuesSupported := x }⟩,
   ⟨g!"userinfo_signing_alg_values_supported", g!"userinfoSigningAlgValuesSupported", onStrs fun x m => { m with userinfoSigningAlgValuesSupported := x }⟩,
   ⟨g!"userinfo_encryption_alg_values_supported", g!"userinfoEncryptionAlgValuesSupported", onStrs fun x m => { m with userinfoEncryptionAlgValuesSupported := x }⟩,
   ⟨g!"userinfo_encryption_enc_values_supported", g!"userinfoEncryptionEncValuesSupported", onStrs fun x m => { m with userinfoEncryptionEncValuesSupported := x }⟩,
   ⟨g!"request_object_signing_alg_values_supported", g!"requestObjectSigningAlgValuesSupported", onStrs fun x m => { m with requestObjectSigningAlgValuesSupported := x }⟩,
   ⟨g!"request_object_encryption_alg_values_supported", g!"requestObjectEncryptionAlgValuesSupported", onStrs fun x m => { m with requestObjectEncryptionAlgValuesSupported := x }⟩,
   ⟨g!"request_object_encryption_enc_values_supported", g!"requestObjectEncryptionEncValuesSupported", onStrs fun x m => { m with requestObjectEncryptionEncValuesSupported := x }⟩,
   ⟨g!"token_endpoint_auth_methods_supported", g!"tokenEndpointAuthMethodsSupported", onStrs fun x m => { m with tokenEndpointAuthMethodsSupported := x }⟩,
   ⟨g!"token_endpoint_auth_signing_alg_values_supported", g!"tokenEndpointAuthSigningAlgValuesSupported", onStrs fun x m => { m with tokenEndpointAuthSigningAlgValuesSupported := x }⟩,
   ⟨g!"display_values_supported", g!"displayValuesSupported", onStrs fun x m => { m with displayValuesSupported := x }⟩,
   ⟨g!"claim_types_supported", g!"claimTypesSupported", onStrs fun x m => { m with claimTypesSupported := x }⟩,
   ⟨g!"claims_supported", g!"claimsSupported", onStrs fun x m => { m with claimsSupported := x }⟩,
   ⟨g!"service_documentation", g!"serviceDocumentation", onStr fun x m => { m with serviceDocumentation := x }⟩,
   ⟨g!"claims_locales_supported", g!"claimsLocalesSupported", onStrs fun x m => { m with claimsLocalesSupported := x }⟩,
   ⟨g!"ui_locales_supported", g!"uiLocalesSupported", onStrs fun x m => { m with uiLocalesSupported := x }⟩,
   ⟨g!"claims_parameter_supported", g!"claimsParameterSupported", onBool fun x m => { m with claimsParameterSupported := x }⟩,
   ⟨g!"request_parameter_supported", g!"requestParameterSupported", onBool fun x m => { m with requestParameterSupported := x }⟩,
   ⟨g!"request_uri_parameter_supported", g!"requestUriParameterSupported", onBool fun x m => { m with requestUriParameterSupported := x }⟩,
   ⟨g!"require_request_uri_registration", g!"requireRequestUriRegistration", onBool fun x m => { m with requireRequestUriRegistration := x }⟩,
   ⟨g!"op_policy_uri", g!"opPolicyUri", onStr fun x m => { m with opPolicyUri := x }⟩,
   ⟨g!"op_tos_uri", g!"opTosUri", onStr fun x m => { m with opTosUri := x }⟩,
   ⟨g!"revocation_endpoint", g!"revocationEndpoint", onStr fun x m => { m with revocationEndpoint := x }⟩,
   ⟨g!"revocation_endpoint_auth_methods_supported", g!"revocationEndpointAuthMethodsSupported", onStrs fun x m => { m with revocationEndpointAuthMethodsSupported := x }⟩,
   ⟨g!"revocation_endpoint_auth_signing_alg_values_supported", g!"revocationEndpointAuthSigningAlgValuesSupported", onStrs fun x m => { m with revocationEndpointAuthSigningAlgValuesSupported := x }⟩,
   ⟨g!"introspection_endpoint", g!"introspectionEndpoint", onStr fun x m => { m with introspectionEndpoint := x }⟩,
   ⟨g!"introspection_endpoint_auth_methods_supported", g!"introspectionEndpointAuthMethodsSupported", onStrs fun x m => { m with introspectionEndpointAuthMethodsSupported := x }⟩,
   ⟨g!"introspection_endpoint_auth_signing_alg_values_supported", g!"introspectionEndpointAuthSigningAlgValuesSupported", onStrs fun x m => { m with introspectionEndpointAuthSigningAlgValuesSupported := x }⟩,
   ⟨g!"code_challenge_methods_supported", g!"codeChallengeMethodsSupported", onStrs fun x m => { m with codeChallengeMethodsSupported := x }⟩,
   ⟨g!"pushed_authorization_request_endpoint", g!"pushedAuthorizationRequestEndpoint", onStr fun x m => { m with pushedAuthorizationRequestEndpoint := x }⟩,
   ⟨g!"pushed_authorization_request_endpoint_auth_methods_supported", g!"pushedAuthorizationRequestEndpointAuthMethodsSupported", onStrs fun x m => { m with pushedAuthorizationRequestEndpointAuthMethodsSupported := x }⟩,
   ⟨g!"mtls_endpoint_aliases", g!"mtlsEndpointAliases", onMsg (fun m => m.mtlsEndpointAliases.getD {}) (fun x m => { m with mtlsEndpointAliases := some x }) MTLSEndpoints.ofJson⟩,
   ⟨g!"device_authorization_endpoint", g!"deviceAuthorizationEndpoint", onStr fun x m => { m with deviceAuthorizationEndpoint := x }⟩,
   ⟨g!"dpop_signing_alg_values_supported", g!"dpopSigningAlgValuesSupported", onStrs fun x m => { m with dpopSigningAlgValuesSupported := x }⟩,
   ⟨g!"tls_client_certificate_bound_access_tokens", g!"tlsClientCertificateBoundAccessTokens", onBool fun x m => { m with tlsClientCertificateBoundAccessTokens := x }⟩,
   ⟨g!"authorization_signing_alg_values_supported", g!"authorizationSigningAlgValuesSupported", onStrs fun x m => { m with authorizationSigningAlgValuesSupported := x }⟩,
   ⟨g!"authorization_encryption_alg_values_supported", g!"authorizationEncryptionAlgValuesSupported", onStrs fun x m => { m with authorizationEncryptionAlgValuesSupported := x }⟩,
   ⟨g!"authorization_encryption_enc_values_supported", g!"authorizationEncryptionEncValuesSupported", onStrs fun x m => { m with authorizationEncryptionEncValuesSupported := x }⟩,
   ⟨g!"authorization_response_iss_parameter_supported", g!"authorizationResponseIssParameterSupported", onBool fun x m => { m with authorizationResponseIssParameterSupported := x }⟩,
   ⟨g!"introspection_signing_alg_values_supported", g!"introspectionSigningAlgValuesSupported", onStrs fun x m => { m with introspectionSigningAlgValuesSupported := x }⟩,
   ⟨g!"introspection_encryption_alg_values_supported", g!"introspectionEncryptionAlgValuesSupported", onStrs fun x m => { m with introspectionEncryptionAlgValuesSupported := x }⟩,
   ⟨g!"introspection_encryption_enc_values_supported", g!"introspectionEncryptionEncValuesSupported", onStrs fun x m => { m with introspectionEncryptionEncValuesSupported := x }⟩,
   ⟨g!"signed_metadata", g!"signedMetadata", onStr fun x m => { m with signedMetadata := x }⟩]

/-- 20-24 `UnmarshalJSON`, which resets the message first. -/
def ServerMetadata.ofJson (o : List (Str × JVal)) : Option Pb.ServerMetadata :=
  members ServerMetadata.jsonFields [] {} o

/-! ### sdk/rfcerrors/errors.go -/

/-- The `err` texts of the builders. -/
def codeText : ErrCode → Str
  | .serverError => g!"server_error"
  | .invalidRequest => g!"invalid_request"
  | .invalidScope => g!"invalid_scope"
  | .invalidGrant => g!"invalid_grant"
  | .invalidClient => g!"invalid_client"
  | .unauthorizedClient => g!"unauthorized_client"
  | .unsupportedGrantType => g!"unsupported_grant_type"
  | .invalidToken => g!"invalid_token"
  | .authorizationPending => g!"authorization_pending"
  | .slowDown => g!"slow_down"
  | .accessDenied => g!"access_denied"
  | .tokenExpired => g!"token_expired"
  | .invalidDPoPProof => g!"invalid_dpop_proof"
  | .invalidTarget => g!"invalid_target"

/-- The descriptions of the builders. -/
def description : ErrCode → Str
  | .serverError => g!"The authorization server encountered an unexpected condition that prevented it from fulfilling the request."
  | .invalidRequest => g!"The request is missing a required parameter, includes an invalid parameter value, includes a parameter more than once, or is otherwise malformed."
  | .invalidScope => g!"The request is missing a required parameter, includes an invalid parameter value, includes a parameter more than once, or is otherwise malformed."
  | .invalidGrant => g!"The provided authorization grant (e.g., authorization code, resource owner credentials) or refresh token is invalid, expired, revoked, does not match the redirection URI used in the authorization request, or was issued to another client."
  | .invalidClient => g!"Client authentication failed (e.g., unknown client, no client authentication included, or unsupported authentication method)."
  | .unauthorizedClient => g!"The authenticated client is not authorized to use this authorization grant type."
  | .unsupportedGrantType => g!"The authorization grant type is not supported by the authorization server."
  | .invalidToken => g!"The access token provided is expired, revoked, malformed, or invalid for other reasons."
  | .authorizationPending => g!"The authorization request is still pending as the end user hasn't yet completed the user-interaction steps."
  | .slowDown => g!"The authorization request is still pending and polling should continue, but the interval MUST be increased by 5 seconds for this and all subsequent requests."
  | .accessDenied => g!"The authorization request was denied."
  | .tokenExpired => g!"The 'device_code' has expired, and the device authorization session has concluded."
  | .invalidDPoPProof => g!"The provided DPoP proof is expired, malformed, or invalid for other reasons."
  | .invalidTarget => g!"The requested resource is invalid, missing, unknown, or malformed."

/-- sdk/rfcerrors/builder.go:67-85 `Build`. -/
def build (e : OErr) : Pb.Error := { err := codeText e.code, errorDescription := description e.code, state := e.state }

/-- respond/helpers.go:29-44 `WithError`: the members of the body. -/
def errorBody (e : OErr) : List (Str × JVal) := Error.toJson (build e)

/-! ### handlers/metadata.go -/

/-- metadata.go:33-80: what the server says of itself. -/
def metadata (issuer : Str) : Pb.ServerMetadata where
  issuer := issuer
  jwksUri := issuer ++ g!"/keys"
  subjectTypesSupported := [g!"pairwise"]
  authorizationEndpoint := issuer ++ g!"/authorize"
  responseTypesSupported := [Oidc.responseTypeCode]
  responseModesSupported := [Oidc.modeQuery, Oidc.modeFragment, Oidc.modeFormPost, Oidc.modeQueryJWT, Oidc.modeFragmentJWT,
    Oidc.modeFormPostJWT, Oidc.modeJWT]
  grantTypesSupported := Http.grantTypesSupported
  tokenEndpoint := issuer ++ g!"/token"
  tokenEndpointAuthMethodsSupported := [g!"private_key_jwt", g!"attest_jwt_client_auth"]
  tokenEndpointAuthSigningAlgValuesSupported := [g!"ES384"]
  codeChallengeMethodsSupported := [g!"S256"]
  introspectionEndpoint := issuer ++ g!"/token/introspect"
  introspectionEndpointAuthMethodsSupported := [g!"private_key_jwt", g!"attest_jwt_client_auth"]
  introspectionEndpointAuthSigningAlgValuesSupported := [g!"ES384"]
  revocationEndpoint := issuer ++ g!"/token/revoke"
  revocationEndpointAuthMethodsSupported := [g!"private_key_jwt", g!"attest_jwt_client_auth"]
  revocationEndpointAuthSigningAlgValuesSupported := [g!"ES384"]
  deviceAuthorizationEndpoint := issuer ++ g!"/device/authorize"
  dpopSigningAlgValuesSupported := [g!"ES256"]
  authorizationResponseIssParameterSupported := true
  authorizationSigningAlgValuesSupported := [g!"ES256", g!"ES384"]
  pushedAuthorizationRequestEndpoint := issuer ++ g!"/par"
  pushedAuthorizationRequestEndpointAuthMethodsSupported := [g!"private_key_jwt", g!"attest_jwt_client_auth"]
  requestParameterSupported := true
  requestObjectSigningAlgValuesSupported := [g!"ES384"]

/-- builders.go:98-105 with sdk/token/api.go:44. -/
def metadataSigner : Signer := ⟨g!"oauth-authorization-server", false⟩

/-- How far a metadata request has come (metadata.go:82-98). The description `md` is
shared by the requests; only its `SignedMetadata` ever changes. -/
inductive Phase where
  /-- not begun -/
  | start
  /-- line 84 done: the signature is removed -/
  | cleared
  /-- line 87 done: signed, not yet stored -/
  | signed (s : Str)
  /-- line 94 done -/
  | stored
  /-- answered with 200 -/
  | answered (md : Pb.ServerMetadata)
  /-- answered with 500 -/
  | failed

/-- The shared signature and the requests. -/
structure MConf where
  shared : Str
  req : Nat → Phase

/-- The description while `s` is the shared signature. -/
def current (issuer s : Str) : Pb.ServerMetadata := { metadata issuer with signedMetadata := s }

/-- What `signer.Serialize(ctx, md)` signs. -/
def signedNow (L : Lib (List (Str × JVal))) (key : Option Jwk) (issuer s : Str) : Option Str :=
  serialize L metadataSigner key (ServerMetadata.toJson (current issuer s))

/-- One request advances by one statement. Reading and writing the shared text is taken to be
atomic. -/
def advance (L : Lib (List (Str × JVal))) (key : Option Jwk) (issuer : Str) (c : MConf) (i : Nat) : MConf :=
  let put (p : Phase) : Nat → Phase := fun j => if j = i then p else c.req j
  match c.req i with
  | .start => ⟨[], put .cleared⟩
  | .cleared =>
    match signedNow L key issuer c.shared with
    | none => ⟨c.shared, put .failed⟩
    | some s => ⟨c.shared, put (.signed s)⟩
  | .signed s => ⟨s, put .stored⟩
  | .stored => ⟨c.shared, put (.answered (current issuer c.shared))⟩
  | .answered _ | .failed => c

/-- The requests advance in the given order. -/
def mrun (L : Lib (List (Str × JVal))) (key : Option Jwk) (issuer : Str) (c : MConf) (is : List Nat) : MConf :=
  is.foldl (advance L key issuer) c

/-- Nobody has asked yet. -/
def MConf.init : MConf := ⟨[], fun _ => .start⟩

/-! ### main.go:62-71 -/

/-- What is mounted at a path. -/
inductive Endpoint where
  | metadata
  | keys
  | http (r : Http.Route)
deriving DecidableEq, Repr

/-- `http.Handle` of the example server: patterns without a trailing slash match the path
exactly. -/
def routes : List (Str × Endpoint) :=
  [(g!"/.well-known/oauth-authorization-server", .metadata),
   (g!"/.well-known/openid-configuration", .metadata),
   (g!"/keys", .keys),
   (g!"/par", .http .par),
   (g!"/authorize", .http .authorize),
   (g!"/token", .http .token),
   (g!"/token/introspect", .http .introspect),
   (g!"/token/revoke", .http .revoke),
   (g!"/device/authorize", .http .deviceAuthorize),
   (g!"/device", .http .device)]

/-- The endpoint behind a URL of the server. -/
def route (issuer url : Str) : Option Endpoint :=
  if issuer.isPrefixOf url then routes.lookup (url.drop issuer.length) else none

/-- main.go:57: the algorithms accepted for DPoP proofs. -/
def proofAlgs : List Str := [g!"ES384"]

/-- handlers/authorization.go:95 and par.go:86: the algorithms accepted for request objects. -/
def requestAlgs : List Str := [g!"ES384"]

/-- main.go:51: the algorithms accepted for client assertions. -/
def assertionAlgs : List Str := [g!"ES256", g!"ES384"]

/-- main.go:56: the algorithm of authorization responses. -/
def responseAlg : Str := g!"ES384"

/-- `jwt.ParseSigned` and `jose.ParseSigned` refuse other algorithms. -/
def restrict (algs : List Str) (parse : Str → Option Jws) (raw : Str) : Option Jws :=
  (parse raw).filter fun t => t.alg ∈ algs

/-! ### client/http.go -/

/-- What comes back for a request of the metadata: the value is `none` for `null`. -/
inductive Answer where
  | failed
  | answer (status : Nat) (body : Option (Option (List (Str × JVal))))

/-- What a client knows after its construction. -/
structure Conn where
  issuer : Str
  metadata : Pb.ServerMetadata
  cache : Client.Cache

/-- client/http.go:43-76 `HTTP`: the metadata is asked for at the well-known path and the keys at
the URL it names. `now` is the time when the keys have come. -/
def connect (fetchMeta : Str → Answer) (fetchKeys : Str → Client.Fetch) (now : Nat) (issuer : Str) : Out Conn :=
  match fetchMeta (issuer ++ g!"/.well-known/oauth-authorization-server") with
  | .failed => .err
  | .answer status body =>
    if status ≠ 200 then .err
    else match body with
      | none => .err
      | some none => .panic
      | some (some o) =>
        match ServerMetadata.ofJson o with
        | none => .err
        | some md =>
          match Client.publicKeys {} now now (fetchKeys md.jwksUri) with
          | (.ok _, cache) => .ok ⟨issuer, md, cache⟩
          | (.err, _) => .err
          | (.panic, _) => .panic

end Verif.Discovery
