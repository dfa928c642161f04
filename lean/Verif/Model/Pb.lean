import Verif.Model.Wire

/-!
The messages of `api/oidc` and their binary codec (`*_vtproto.pb.go`): per message the
parts that `MarshalToSizedBufferVT` writes (in the order of the encoding, the reverse of
the order of the statements), with the sizes of `SizeVT`, and the cases of
`UnmarshalVT`. The tags are the constants of the source.

A `[]byte` field is a string here (nil and empty are not told apart); the elements of a
repeated message field and the message of a `oneof` are not nil; an enumeration is its
32 bits. `ClientMeta` (which has maps) and `RegisterRequest` (which contains it) are in
`Model/PbMap.lean`. `Actor` contains itself: its decoder takes the depth that it may reach, which
the length of the input bounds.
-/
namespace Verif.Pb
open Verif.Jose (Out)
open Verif.Wire (Part Handler onStr onFix onEnum onVarint onBool onMsg)

/-! #### `AuthenticateRequest` -/

structure AuthenticateRequest where
  clientId : Option Str := none
  clientSecret : Option Str := none
  clientAssertionType : Option Str := none
  clientAssertion : Option Str := none
  unknown : Str := []

/-- api/oidc/client/v1/client_api_vtproto.pb.go:41-81 `MarshalToSizedBufferVT`, 233-256 `SizeVT`. -/
def AuthenticateRequest.parts (m : AuthenticateRequest) : List Part :=
  [.optStr [10] m.clientId,
   .optStr [18] m.clientSecret,
   .optStr [26] m.clientAssertionType,
   .optStr [34] m.clientAssertion,
   .raw m.unknown]

/-- api/oidc/client/v1/client_api_vtproto.pb.go:309-490 `UnmarshalVT`. -/
def AuthenticateRequest.fields : List (Nat × Handler AuthenticateRequest) :=
  [(1, onStr fun s m => { m with clientId := some s }),
   (2, onStr fun s m => { m with clientSecret := some s }),
   (3, onStr fun s m => { m with clientAssertionType := some s }),
   (4, onStr fun s m => { m with clientAssertion := some s })]

def AuthenticateRequest.keep (u : Str) (m : AuthenticateRequest) : AuthenticateRequest := { m with unknown := m.unknown ++ u }

def AuthenticateRequest.unmarshal (m : AuthenticateRequest) (d : Str) : Out AuthenticateRequest := Wire.unmarshal AuthenticateRequest.fields AuthenticateRequest.keep m d

def AuthenticateRequest.marshal (m : AuthenticateRequest) : Option Str := Wire.marshal m.parts

/-! #### `Error` -/

structure Error where
  err : Str := []
  errorDescription : Str := []
  errorUri : Option Str := none
  state : Option Str := none
  resource : Option Str := none
  unknown : Str := []

/-- api/oidc/core/v1/error_vtproto.pb.go:40-87 `MarshalToSizedBufferVT`, 101-128 `SizeVT`. -/
def Error.parts (m : Error) : List Part :=
  [.str [10] m.err,
   .str [18] m.errorDescription,
   .optStr [26] m.errorUri,
   .optStr [34] m.state,
   .optStr [42] m.resource,
   .raw m.unknown]

/-- api/oidc/core/v1/error_vtproto.pb.go:137-349 `UnmarshalVT`. -/
def Error.fields : List (Nat × Handler Error) :=
  [(1, onStr fun s m => { m with err := s }),
   (2, onStr fun s m => { m with errorDescription := s }),
   (3, onStr fun s m => { m with errorUri := some s }),
   (4, onStr fun s m => { m with state := some s }),
   (5, onStr fun s m => { m with resource := some s })]

def Error.keep (u : Str) (m : Error) : Error := { m with unknown := m.unknown ++ u }

def Error.unmarshal (m : Error) (d : Str) : Out Error := Wire.unmarshal Error.fields Error.keep m d

def Error.marshal (m : Error) : Option Str := Wire.marshal m.parts

/-! #### `Client` -/

structure Client where
  clientId : Str := []
  clientType : UInt32 := 0
  redirectUris : List Str := []
  responseTypes : List Str := []
  responseModes : List Str := []
  grantTypes : List Str := []
  applicationType : Str := []
  contacts : List Str := []
  clientName : Str := []
  logoUri : Str := []
  clientUri : Str := []
  policyUri : Str := []
  tosUri : Str := []
  jwksUri : Str := []
  jwks : Str := []
  clientSecret : Str := []
  subjectType : Str := []
  sectorIdentifier : Str := []
  tokenEndpointAuthMethod : Str := []
  tlsClientAuthSubjectDn : Str := []
  tlsClientAuthSanDns : Str := []
  tlsClientAuthSanUri : Str := []
  tlsClientAuthSanIp : Str := []
  tlsClientAuthSanEmail : Str := []
  tlsClientCertificateBoundAccessTokens : Bool := false
  requirePushedAuthorizationRequests : Bool := false
  requireSignedRequestObject : Bool := false
  dpopBoundAccessTokens : Bool := false
  unknown : Str := []

/-- api/oidc/client/v1/client_vtproto.pb.go:40-294 `MarshalToSizedBufferVT`, 745-869 `SizeVT`. -/
def Client.parts (m : Client) : List Part :=
  [.str [10] m.clientId,
   .enum [16] m.clientType,
   .all (m.redirectUris.map (.bytes [26])),
   .all (m.responseTypes.map (.bytes [34])),
   .all (m.responseModes.map (.bytes [42])),
   .all (m.grantTypes.map (.bytes [50])),
   .str [58] m.applicationType,
   .all (m.contacts.map (.bytes [66])),
   .str [74] m.clientName,
   .str [82] m.logoUri,
   .str [90] m.clientUri,
   .str [98] m.policyUri,
   .str [106] m.tosUri,
   .str [114] m.jwksUri,
   .str [122] m.jwks,
   .str [130, 1] m.clientSecret,
   .str [138, 1] m.subjectType,
   .str [146, 1] m.sectorIdentifier,
   .str [154, 1] m.tokenEndpointAuthMethod,
   .str [162, 1] m.tlsClientAuthSubjectDn,
   .str [170, 1] m.tlsClientAuthSanDns,
   .str [178, 1] m.tlsClientAuthSanUri,
   .str [186, 1] m.tlsClientAuthSanIp,
   .str [194, 1] m.tlsClientAuthSanEmail,
   .bool [200, 1] m.tlsClientCertificateBoundAccessTokens,
   .bool [208, 1] m.requirePushedAuthorizationRequests,
   .bool [216, 1] m.requireSignedRequestObject,
   .bool [224, 1] m.dpopBoundAccessTokens,
   .raw m.unknown]

/-- api/oidc/client/v1/client_vtproto.pb.go:1068-1956 `UnmarshalVT`. -/
def Client.fields : List (Nat × Handler Client) :=
  [(1, onStr fun s m => { m with clientId := s }),
   (2, onEnum fun s m => { m with clientType := s }),
   (3, onStr fun s m => { m with redirectUris := m.redirectUris ++ [s] }),
   (4, onStr fun s m => { m with responseTypes := m.responseTypes ++ [s] }),
   (5, onStr fun s m => { m with responseModes := m.responseModes ++ [s] }),
   (6, onStr fun s m => { m with grantTypes := m.grantTypes ++ [s] }),
   (7, onStr fun s m => { m with applicationType := s }),
   (8, onStr fun s m => { m with contacts := m.contacts ++ [s] }),
   (9, onStr fun s m => { m with clientName := s }),
   (10, onStr fun s m => { m with logoUri := s }),
   (11, onStr fun s m => { m with clientUri := s }),
   (12, onStr fun s m => { m with policyUri := s }),
   (13, onStr fun s m => { m with tosUri := s }),
   (14, onStr fun s m => { m with jwksUri := s }),
   (15, onStr fun s m => { m with jwks := s }),
   (16, onStr fun s m => { m with clientSecret := s }),
   (17, onStr fun s m => { m with subjectType := s }),
   (18, onStr fun s m => { m with sectorIdentifier := s }),
   (19, onStr fun s m => { m with tokenEndpointAuthMethod := s }),
   (20, onStr fun s m => { m with tlsClientAuthSubjectDn := s }),
   (21, onStr fun s m => { m with tlsClientAuthSanDns := s }),
   (22, onStr fun s m => { m with tlsClientAuthSanUri := s }),
   (23, onStr fun s m => { m with tlsClientAuthSanIp := s }),
   (24, onStr fun s m => { m with tlsClientAuthSanEmail := s }),
   (25, onBool fun s m => { m with tlsClientCertificateBoundAccessTokens := s }),
   (26, onBool fun s m => { m with requirePushedAuthorizationRequests := s }),
   (27, onBool fun s m => { m with requireSignedRequestObject := s }),
   (28, onBool fun s m => { m with dpopBoundAccessTokens := s })]

def Client.keep (u : Str) (m : Client) : Client := { m with unknown := m.unknown ++ u }

def Client.unmarshal (m : Client) (d : Str) : Out Client := Wire.unmarshal Client.fields Client.keep m d

def Client.marshal (m : Client) : Option Str := Wire.marshal m.parts

/-! #### `AuthenticateResponse` -/

structure AuthenticateResponse where
  error : Option Error := none
  client : Option Client := none
  unknown : Str := []

/-- api/oidc/client/v1/client_api_vtproto.pb.go:102-134 `MarshalToSizedBufferVT`, 259-274 `SizeVT`. -/
def AuthenticateResponse.parts (m : AuthenticateResponse) : List Part :=
  [.optMsg [10] (m.error.map Error.parts),
   .optMsg [18] (m.client.map Client.parts),
   .raw m.unknown]

/-- api/oidc/client/v1/client_api_vtproto.pb.go:492-613 `UnmarshalVT`. -/
def AuthenticateResponse.fields : List (Nat × Handler AuthenticateResponse) :=
  [(1, onMsg (fun m => m.error.getD {}) (fun s m => { m with error := some s }) Error.unmarshal),
   (2, onMsg (fun m => m.client.getD {}) (fun s m => { m with client := some s }) Client.unmarshal)]

def AuthenticateResponse.keep (u : Str) (m : AuthenticateResponse) : AuthenticateResponse := { m with unknown := m.unknown ++ u }

def AuthenticateResponse.unmarshal (m : AuthenticateResponse) (d : Str) : Out AuthenticateResponse := Wire.unmarshal AuthenticateResponse.fields AuthenticateResponse.keep m d

def AuthenticateResponse.marshal (m : AuthenticateResponse) : Option Str := Wire.marshal m.parts

/-! #### `RegisterResponse` -/

structure RegisterResponse where
  error : Option Error := none
  client : Option Client := none
  unknown : Str := []

/-- api/oidc/client/v1/client_api_vtproto.pb.go:198-230 `MarshalToSizedBufferVT`, 291-306 `SizeVT`. -/
def RegisterResponse.parts (m : RegisterResponse) : List Part :=
  [.optMsg [10] (m.error.map Error.parts),
   .optMsg [18] (m.client.map Client.parts),
   .raw m.unknown]

/-- api/oidc/client/v1/client_api_vtproto.pb.go:702-823 `UnmarshalVT`. -/
def RegisterResponse.fields : List (Nat × Handler RegisterResponse) :=
  [(1, onMsg (fun m => m.error.getD {}) (fun s m => { m with error := some s }) Error.unmarshal),
   (2, onMsg (fun m => m.client.getD {}) (fun s m => { m with client := some s }) Client.unmarshal)]

def RegisterResponse.keep (u : Str) (m : RegisterResponse) : RegisterResponse := { m with unknown := m.unknown ++ u }

def RegisterResponse.unmarshal (m : RegisterResponse) (d : Str) : Out RegisterResponse := Wire.unmarshal RegisterResponse.fields RegisterResponse.keep m d

def RegisterResponse.marshal (m : RegisterResponse) : Option Str := Wire.marshal m.parts

/-! #### `SoftwareStatement` -/

structure SoftwareStatement where
  softwareId : Str := []
  unknown : Str := []

/-- api/oidc/client/v1/client_vtproto.pb.go:712-731 `MarshalToSizedBufferVT`, 1048-1059 `SizeVT`. -/
def SoftwareStatement.parts (m : SoftwareStatement) : List Part :=
  [.str [10] m.softwareId,
   .raw m.unknown]

/-- api/oidc/client/v1/client_vtproto.pb.go:3521-3602 `UnmarshalVT`. -/
def SoftwareStatement.fields : List (Nat × Handler SoftwareStatement) :=
  [(1, onStr fun s m => { m with softwareId := s })]

def SoftwareStatement.keep (u : Str) (m : SoftwareStatement) : SoftwareStatement := { m with unknown := m.unknown ++ u }

def SoftwareStatement.unmarshal (m : SoftwareStatement) (d : Str) : Out SoftwareStatement := Wire.unmarshal SoftwareStatement.fields SoftwareStatement.keep m d

def SoftwareStatement.marshal (m : SoftwareStatement) : Option Str := Wire.marshal m.parts

/-! #### `ProtectedResourceMetadata` -/

structure ProtectedResourceMetadata where
  resource : Str := []
  authorizationServers : List Str := []
  jwksUri : Option Str := none
  scopesProvided : List Str := []
  bearerMethodsSupported : List Str := []
  resourceSigningAlgValuesSupported : List Str := []
  resourceEncryptionAlgValuesSupported : List Str := []
  resourceEncryptionEncValuesSupported : List Str := []
  resourceDocumentation : Option Str := none
  resourcePolicyUri : Option Str := none
  resourceTosUri : Option Str := none
  signedMetadata : Option Str := none
  unknown : Str := []

/-- api/oidc/discovery/v1/resource_vtproto.pb.go:40-148 `MarshalToSizedBufferVT`, 162-229 `SizeVT`. -/
def ProtectedResourceMetadata.parts (m : ProtectedResourceMetadata) : List Part :=
  [.str [10] m.resource,
   .all (m.authorizationServers.map (.bytes [18])),
   .optStr [26] m.jwksUri,
   .all (m.scopesProvided.map (.bytes [34])),
   .all (m.bearerMethodsSupported.map (.bytes [42])),
   .all (m.resourceSigningAlgValuesSupported.map (.bytes [50])),
   .all (m.resourceEncryptionAlgValuesSupported.map (.bytes [58])),
   .all (m.resourceEncryptionEncValuesSupported.map (.bytes [66])),
   .optStr [74] m.resourceDocumentation,
   .optStr [82] m.resourcePolicyUri,
   .optStr [90] m.resourceTosUri,
   .optStr [98] m.signedMetadata,
   .raw m.unknown]

/-- api/oidc/discovery/v1/resource_vtproto.pb.go:238-676 `UnmarshalVT`. -/
def ProtectedResourceMetadata.fields : List (Nat × Handler ProtectedResourceMetadata) :=
  [(1, onStr fun s m => { m with resource := s }),
   (2, onStr fun s m => { m with authorizationServers := m.authorizationServers ++ [s] }),
   (3, onStr fun s m => { m with jwksUri := some s }),
   (4, onStr fun s m => { m with scopesProvided := m.scopesProvided ++ [s] }),
   (5, onStr fun s m => { m with bearerMethodsSupported := m.bearerMethodsSupported ++ [s] }),
   (6, onStr fun s m => { m with resourceSigningAlgValuesSupported := m.resourceSigningAlgValuesSupported ++ [s] }),
   (7, onStr fun s m => { m with resourceEncryptionAlgValuesSupported := m.resourceEncryptionAlgValuesSupported ++ [s] }),
   (8, onStr fun s m => { m with resourceEncryptionEncValuesSupported := m.resourceEncryptionEncValuesSupported ++ [s] }),
   (9, onStr fun s m => { m with resourceDocumentation := some s }),
   (10, onStr fun s m => { m with resourcePolicyUri := some s }),
   (11, onStr fun s m => { m with resourceTosUri := some s }),
   (12, onStr fun s m => { m with signedMetadata := some s })]

def ProtectedResourceMetadata.keep (u : Str) (m : ProtectedResourceMetadata) : ProtectedResourceMetadata := { m with unknown := m.unknown ++ u }

def ProtectedResourceMetadata.unmarshal (m : ProtectedResourceMetadata) (d : Str) : Out ProtectedResourceMetadata := Wire.unmarshal ProtectedResourceMetadata.fields ProtectedResourceMetadata.keep m d

def ProtectedResourceMetadata.marshal (m : ProtectedResourceMetadata) : Option Str := Wire.marshal m.parts

/-! #### `MTLSEndpoints` -/

structure MTLSEndpoints where
  tokenEndpoint : Str := []
  revocationEndpoint : Str := []
  introspectionEndpoint : Str := []
  pushedAuthorizationRequestEndpoint : Str := []
  deviceAuthorizationEndpoint : Str := []
  unknown : Str := []

/-- api/oidc/discovery/v1/server_vtproto.pb.go:637-684 `MarshalToSizedBufferVT`, 985-1012 `SizeVT`. -/
def MTLSEndpoints.parts (m : MTLSEndpoints) : List Part :=
  [.str [10] m.tokenEndpoint,
   .str [18] m.revocationEndpoint,
   .str [26] m.introspectionEndpoint,
   .str [34] m.pushedAuthorizationRequestEndpoint,
   .str [42] m.deviceAuthorizationEndpoint,
   .raw m.unknown]

/-- api/oidc/discovery/v1/server_vtproto.pb.go:2790-2999 `UnmarshalVT`. -/
def MTLSEndpoints.fields : List (Nat × Handler MTLSEndpoints) :=
  [(1, onStr fun s m => { m with tokenEndpoint := s }),
   (2, onStr fun s m => { m with revocationEndpoint := s }),
   (3, onStr fun s m => { m with introspectionEndpoint := s }),
   (4, onStr fun s m => { m with pushedAuthorizationRequestEndpoint := s }),
   (5, onStr fun s m => { m with deviceAuthorizationEndpoint := s })]

def MTLSEndpoints.keep (u : Str) (m : MTLSEndpoints) : MTLSEndpoints := { m with unknown := m.unknown ++ u }

def MTLSEndpoints.unmarshal (m : MTLSEndpoints) (d : Str) : Out MTLSEndpoints := Wire.unmarshal MTLSEndpoints.fields MTLSEndpoints.keep m d

def MTLSEndpoints.marshal (m : MTLSEndpoints) : Option Str := Wire.marshal m.parts

/-! #### `ServerMetadata` -/

structure ServerMetadata where
  issuer : Str := []
  authorizationEndpoint : Str := []
  tokenEndpoint : Str := []
  jwksUri : Str := []
  userinfoEndpoint : Str := []
  registrationEndpoint : Str := []
  scopesSupported : List Str := []
  responseTypesSupported : List Str := []
  responseModesSupported : List Str := []
  grantTypesSupported : List Str := []
  acrValuesSupported : List Str := []
  subjectTypesSupported : List Str := []
  idTokenSigningAlgValuesSupported : List Str := []
  idTokenEncryptionAlgValuesSupported : List Str := []
  idTokenEncryptionEncValuesSupported : List Str := []
  userinfoSigningAlgValuesSupported : List Str := []
  userinfoEncryptionAlgValuesSupported : List Str := []
  userinfoEncryptionEncValuesSupported : List Str := []
  requestObjectSigningAlgValuesSupported : List Str := []
  requestObjectEncryptionAlgValuesSupported : List Str := []
  requestObjectEncryptionEncValuesSupported : List Str := []
  tokenEndpointAuthMethodsSupported : List Str := []
  tokenEndpointAuthSigningAlgValuesSupported : List Str := []
  displayValuesSupported : List Str := []
  claimTypesSupported : List Str := []
  claimsSupported : List Str := []
  serviceDocumentation : Str := []
  claimsLocalesSupported : List Str := []
  uiLocalesSupported : List Str := []
  claimsParameterSupported : Bool := false
  requestParameterSupported : Bool := false
  requestUriParameterSupported : Bool := false
  requireRequestUriRegistration : Bool := false
  opPolicyUri : Str := []
  opTosUri : Str := []
  revocationEndpoint : Str := []
  revocationEndpointAuthMethodsSupported : List Str := []
  revocationEndpointAuthSigningAlgValuesSupported : List Str := []
  introspectionEndpoint : Str := []
  introspectionEndpointAuthMethodsSupported : List Str := []
  introspectionEndpointAuthSigningAlgValuesSupported : List Str := []
  codeChallengeMethodsSupported : List Str := []
  pushedAuthorizationRequestEndpoint : Str := []
  pushedAuthorizationRequestEndpointAuthMethodsSupported : List Str := []
  mtlsEndpointAliases : Option MTLSEndpoints := none
  deviceAuthorizationEndpoint : Str := []
  dpopSigningAlgValuesSupported : List Str := []
  tlsClientCertificateBoundAccessTokens : Bool := false
  authorizationSigningAlgValuesSupported : List Str := []
  authorizationEncryptionAlgValuesSupported : List Str := []
  authorizationEncryptionEncValuesSupported : List Str := []
  authorizationResponseIssParameterSupported : Bool := false
  introspectionSigningAlgValuesSupported : List Str := []
  introspectionEncryptionAlgValuesSupported : List Str := []
  introspectionEncryptionEncValuesSupported : List Str := []
  signedMetadata : Str := []
  unknown : Str := []

/-- api/oidc/discovery/v1/server_vtproto.pb.go:39-616 `MarshalToSizedBufferVT`, 687-982 `SizeVT`. -/
def ServerMetadata.parts (m : ServerMetadata) : List Part :=
  [.str [10] m.issuer,
   .str [18] m.authorizationEndpoint,
   .str [26] m.tokenEndpoint,
   .str [34] m.jwksUri,
   .str [42] m.userinfoEndpoint,
   .str [50] m.registrationEndpoint,
   .all (m.scopesSupported.map (.bytes [58])),
   .all (m.responseTypesSupported.map (.bytes [66])),
   .all (m.responseModesSupported.map (.bytes [74])),
   .all (m.grantTypesSupported.map (.bytes [82])),
   .all (m.acrValuesSupported.map (.bytes [90])),
   .all (m.subjectTypesSupported.map (.bytes [98])),
   .all (m.idTokenSigningAlgValuesSupported.map (.bytes [106])),
   .all (m.idTokenEncryptionAlgValuesSupported.map (.bytes [114])),
   .all (m.idTokenEncryptionEncValuesSupported.map (.bytes [122])),
   .all (m.userinfoSigningAlgValuesSupported.map (.bytes [130, 1])),
   .all (m.userinfoEncryptionAlgValuesSupported.map (.bytes [138, 1])),
   .all (m.userinfoEncryptionEncValuesSupported.map (.bytes [146, 1])),
   .all (m.requestObjectSigningAlgValuesSupported.map (.bytes [154, 1])),
   .all (m.requestObjectEncryptionAlgValuesSupported.map (.bytes [162, 1])),
   .all (m.requestObjectEncryptionEncValuesSupported.map (.bytes [170, 1])),
   .all (m.tokenEndpointAuthMethodsSupported.map (.bytes [178, 1])),
   .all (m.tokenEndpointAuthSigningAlgValuesSupported.map (.bytes [186, 1])),
   .all (m.displayValuesSupported.map (.bytes [194, 1])),
   .all (m.claimTypesSupported.map (.bytes [202, 1])),
   .all (m.claimsSupported.map (.bytes [210, 1])),
   .str [218, 1] m.serviceDocumentation,
   .all (m.claimsLocalesSupported.map (.bytes [226, 1])),
   .all (m.uiLocalesSupported.map (.bytes [234, 1])),
   .bool [240, 1] m.claimsParameterSupported,
   .bool [248, 1] m.requestParameterSupported,
   .bool [128, 2] m.requestUriParameterSupported,
   .bool [136, 2] m.requireRequestUriRegistration,
   .str [146, 2] m.opPolicyUri,
   .str [154, 2] m.opTosUri,
   .str [162, 2] m.revocationEndpoint,
   .all (m.revocationEndpointAuthMethodsSupported.map (.bytes [170, 2])),
   .all (m.revocationEndpointAuthSigningAlgValuesSupported.map (.bytes [178, 2])),
   .str [186, 2] m.introspectionEndpoint,
   .all (m.introspectionEndpointAuthMethodsSupported.map (.bytes [194, 2])),
   .all (m.introspectionEndpointAuthSigningAlgValuesSupported.map (.bytes [202, 2])),
   .all (m.codeChallengeMethodsSupported.map (.bytes [210, 2])),
   .str [218, 2] m.pushedAuthorizationRequestEndpoint,
   .all (m.pushedAuthorizationRequestEndpointAuthMethodsSupported.map (.bytes [226, 2])),
   .optMsg [234, 2] (m.mtlsEndpointAliases.map MTLSEndpoints.parts),
   .str [242, 2] m.deviceAuthorizationEndpoint,
   .all (m.dpopSigningAlgValuesSupported.map (.bytes [250, 2])),
   .bool [128, 3] m.tlsClientCertificateBoundAccessTokens,
   .all (m.authorizationSigningAlgValuesSupported.map (.bytes [138, 3])),
   .all (m.authorizationEncryptionAlgValuesSupported.map (.bytes [146, 3])),
   .all (m.authorizationEncryptionEncValuesSupported.map (.bytes [154, 3])),
   .bool [160, 3] m.authorizationResponseIssParameterSupported,
   .all (m.introspectionSigningAlgValuesSupported.map (.bytes [170, 3])),
   .all (m.introspectionEncryptionAlgValuesSupported.map (.bytes [178, 3])),
   .all (m.introspectionEncryptionEncValuesSupported.map (.bytes [186, 3])),
   .str [194, 3] m.signedMetadata,
   .raw m.unknown]

/-- api/oidc/discovery/v1/server_vtproto.pb.go:1015-2788 `UnmarshalVT`. -/
def ServerMetadata.fields : List (Nat × Handler ServerMetadata) :=
  [(1, onStr fun s m => { m with issuer := s }),
   (2, onStr fun s m => { m with authorizationEndpoint := s }),
   (3, onStr fun s m => { m with tokenEndpoint := s }),
   (4, onStr fun s m => { m with jwksUri := s }),
   (5, onStr fun s m => { m with userinfoEndpoint := s }),
   (6, onStr fun s m => { m with registrationEndpoint := s }),
   (7, onStr fun s m => { m with scopesSupported := m.scopesSupported ++ [s] }),
   (8, onStr fun s m => { m with responseTypesSupported := m.responseTypesSupported ++ [s] }),
   (9, onStr fun s m => { m with responseModesSupported := m.responseModesSupported ++ [s] }),
   (10, onStr fun s m => { m with grantTypesSupported := m.grantTypesSupported ++ [s] }),
   (11, onStr fun s m => { m with acrValuesSupported := m.acrValuesSupported ++ [s] }),
   (12, onStr fun s m => { m with subjectTypesSupported := m.subjectTypesSupported ++ [s] }),
   (13, onStr fun s m => { m with idTokenSigningAlgValuesSupported := m.idTokenSigningAlgValuesSupported ++ [s] }),
   (14, onStr fun s m => { m with idTokenEncryptionAlgValuesSupported := m.idTokenEncryptionAlgValuesSupported ++ [s] }),
   (15, onStr fun s m => { m with idTokenEncryptionEncValuesSupported := m.idTokenEncryptionEncValuesSupported ++ [s] }),
   (16, onStr fun s m => { m with userinfoSigningAlgValuesSupported := m.userinfoSigningAlgValuesSupported ++ [s] }),
   (17, onStr fun s m => { m with userinfoEncryptionAlgValuesSupported := m.userinfoEncryptionAlgValuesSupported ++ [s] }),
   (18, onStr fun s m => { m with userinfoEncryptionEncValuesSupported := m.userinfoEncryptionEncValuesSupported ++ [s] }),
   (19, onStr fun s m => { m with requestObjectSigningAlgValuesSupported := m.requestObjectSigningAlgValuesSupported ++ [s] }),
   (20, onStr fun s m => { m with requestObjectEncryptionAlgValuesSupported := m.requestObjectEncryptionAlgValuesSupported ++ [s] }),
   (21, onStr fun s m => { m with requestObjectEncryptionEncValuesSupported := m.requestObjectEncryptionEncValuesSupported ++ [s] }),
   (22, onStr fun s m => { m with tokenEndpointAuthMethodsSupported := m.tokenEndpointAuthMethodsSupported ++ [s] }),
   (23, onStr fun s m => { m with tokenEndpointAuthSigningAlgValuesSupported := m.tokenEndpointAuthSigningAlgValuesSupported ++ [s] }),
   (24, onStr fun s m => { m with displayValuesSupported := m.displayValuesSupported ++ [s] }),
   (25, onStr fun s m => { m with claimTypesSupported := m.claimTypesSupported ++ [s] }),
   (26, onStr fun s m => { m with claimsSupported := m.claimsSupported ++ [s] }),
   (27, onStr fun s m => { m with serviceDocumentation := s }),
   (28, onStr fun s m => { m with claimsLocalesSupported := m.claimsLocalesSupported ++ [s] }),
   (29, onStr fun s m => { m with uiLocalesSupported := m.uiLocalesSupported ++ [s] }),
   (30, onBool fun s m => { m with claimsParameterSupported := s }),
   (31, onBool fun s m => { m with requestParameterSupported := s }),
   (32, onBool fun s m => { m with requestUriParameterSupported := s }),
   (33, onBool fun s m => { m with requireRequestUriRegistration := s }),
   (34, onStr fun s m => { m with opPolicyUri := s }),
   (35, onStr fun s m => { m with opTosUri := s }),
   (36, onStr fun s m => { m with revocationEndpoint := s }),
   (37, onStr fun s m => { m with revocationEndpointAuthMethodsSupported := m.revocationEndpointAuthMethodsSupported ++ [s] }),
   (38, onStr fun s m => { m with revocationEndpointAuthSigningAlgValuesSupported := m.revocationEndpointAuthSigningAlgValuesSupported ++ [s] }),
   (39, onStr fun s m => { m with introspectionEndpoint := s }),
   (40, onStr fun s m => { m with introspectionEndpointAuthMethodsSupported := m.introspectionEndpointAuthMethodsSupported ++ [s] }),
   (41, onStr fun s m => { m with introspectionEndpointAuthSigningAlgValuesSupported := m.introspectionEndpointAuthSigningAlgValuesSupported ++ [s] }),
   (42, onStr fun s m => { m with codeChallengeMethodsSupported := m.codeChallengeMethodsSupported ++ [s] }),
   (43, onStr fun s m => { m with pushedAuthorizationRequestEndpoint := s }),
   (44, onStr fun s m => { m with pushedAuthorizationRequestEndpointAuthMethodsSupported := m.pushedAuthorizationRequestEndpointAuthMethodsSupported ++ [s] }),
   (45, onMsg (fun m => m.mtlsEndpointAliases.getD {}) (fun s m => { m with mtlsEndpointAliases := some s }) MTLSEndpoints.unmarshal),
   (46, onStr fun s m => { m with deviceAuthorizationEndpoint := s }),
   (47, onStr fun s m => { m with dpopSigningAlgValuesSupported := m.dpopSigningAlgValuesSupported ++ [s] }),
   (48, onBool fun s m => { m with tlsClientCertificateBoundAccessTokens := s }),
   (49, onStr fun s m => { m with authorizationSigningAlgValuesSupported := m.authorizationSigningAlgValuesSupported ++ [s] }),
   (50, onStr fun s m => { m with authorizationEncryptionAlgValuesSupported := m.authorizationEncryptionAlgValuesSupported ++ [s] }),
   (51, onStr fun s m => { m with authorizationEncryptionEncValuesSupported := m.authorizationEncryptionEncValuesSupported ++ [s] }),
   (52, onBool fun s m => { m with authorizationResponseIssParameterSupported := s }),
   (53, onStr fun s m => { m with introspectionSigningAlgValuesSupported := m.introspectionSigningAlgValuesSupported ++ [s] }),
   (54, onStr fun s m => { m with introspectionEncryptionAlgValuesSupported := m.introspectionEncryptionAlgValuesSupported ++ [s] }),
   (55, onStr fun s m => { m with introspectionEncryptionEncValuesSupported := m.introspectionEncryptionEncValuesSupported ++ [s] }),
   (56, onStr fun s m => { m with signedMetadata := s })]

def ServerMetadata.keep (u : Str) (m : ServerMetadata) : ServerMetadata := { m with unknown := m.unknown ++ u }

def ServerMetadata.unmarshal (m : ServerMetadata) (d : Str) : Out ServerMetadata := Wire.unmarshal ServerMetadata.fields ServerMetadata.keep m d

def ServerMetadata.marshal (m : ServerMetadata) : Option Str := Wire.marshal m.parts

/-! #### `AuthorizationRequest` -/

structure AuthorizationRequest where
  scope : Str := []
  responseType : Str := []
  clientId : Str := []
  redirectUri : Str := []
  state : Str := []
  responseMode : Option Str := none
  nonce : Str := []
  display : Option Str := none
  prompt : Option Str := none
  maxAge : Option UInt64 := none
  uiLocales : Option Str := none
  idTokenHint : Option Str := none
  acrValues : Option Str := none
  request : Option Str := none
  requestUri : Option Str := none
  codeChallenge : Str := []
  codeChallengeMethod : Str := []
  audience : Str := []
  dpopProof : Option Str := none
  resource : List Str := []
  iss : Option Str := none
  loginHintToken : Option Str := none
  loginHint : Option Str := none
  unknown : Str := []

/-- api/oidc/flow/v1/flow_vtproto.pb.go:40-229 `MarshalToSizedBufferVT`, 243-343 `SizeVT`. -/
def AuthorizationRequest.parts (m : AuthorizationRequest) : List Part :=
  [.str [10] m.scope,
   .str [18] m.responseType,
   .str [26] m.clientId,
   .str [34] m.redirectUri,
   .str [42] m.state,
   .optStr [50] m.responseMode,
   .str [58] m.nonce,
   .optStr [66] m.display,
   .optStr [74] m.prompt,
   .optVarint [80] m.maxAge,
   .optStr [90] m.uiLocales,
   .optStr [98] m.idTokenHint,
   .optStr [106] m.acrValues,
   .optStr [114] m.request,
   .optStr [122] m.requestUri,
   .str [130, 1] m.codeChallenge,
   .str [138, 1] m.codeChallengeMethod,
   .str [146, 1] m.audience,
   .optStr [154, 1] m.dpopProof,
   .all (m.resource.map (.bytes [162, 1])),
   .optStr [170, 1] m.iss,
   .optStr [178, 1] m.loginHintToken,
   .optStr [186, 1] m.loginHint,
   .raw m.unknown]

/-- api/oidc/flow/v1/flow_vtproto.pb.go:352-1137 `UnmarshalVT`. -/
def AuthorizationRequest.fields : List (Nat × Handler AuthorizationRequest) :=
  [(1, onStr fun s m => { m with scope := s }),
   (2, onStr fun s m => { m with responseType := s }),
   (3, onStr fun s m => { m with clientId := s }),
   (4, onStr fun s m => { m with redirectUri := s }),
   (5, onStr fun s m => { m with state := s }),
   (6, onStr fun s m => { m with responseMode := some s }),
   (7, onStr fun s m => { m with nonce := s }),
   (8, onStr fun s m => { m with display := some s }),
   (9, onStr fun s m => { m with prompt := some s }),
   (10, onVarint fun s m => { m with maxAge := some s }),
   (11, onStr fun s m => { m with uiLocales := some s }),
   (12, onStr fun s m => { m with idTokenHint := some s }),
   (13, onStr fun s m => { m with acrValues := some s }),
   (14, onStr fun s m => { m with request := some s }),
   (15, onStr fun s m => { m with requestUri := some s }),
   (16, onStr fun s m => { m with codeChallenge := s }),
   (17, onStr fun s m => { m with codeChallengeMethod := s }),
   (18, onStr fun s m => { m with audience := s }),
   (19, onStr fun s m => { m with dpopProof := some s }),
   (20, onStr fun s m => { m with resource := m.resource ++ [s] }),
   (21, onStr fun s m => { m with iss := some s }),
   (22, onStr fun s m => { m with loginHintToken := some s }),
   (23, onStr fun s m => { m with loginHint := some s })]

def AuthorizationRequest.keep (u : Str) (m : AuthorizationRequest) : AuthorizationRequest := { m with unknown := m.unknown ++ u }

def AuthorizationRequest.unmarshal (m : AuthorizationRequest) (d : Str) : Out AuthorizationRequest := Wire.unmarshal AuthorizationRequest.fields AuthorizationRequest.keep m d

def AuthorizationRequest.marshal (m : AuthorizationRequest) : Option Str := Wire.marshal m.parts

/-! #### `AuthorizeRequest` -/

structure AuthorizeRequest where
  issuer : Str := []
  client : Option Client := none
  subject : Str := []
  request : Option AuthorizationRequest := none
  unknown : Str := []

/-- api/oidc/flow/v1/flow_api_vtproto.pb.go:44-90 `MarshalToSizedBufferVT`, 853-876 `SizeVT`. -/
def AuthorizeRequest.parts (m : AuthorizeRequest) : List Part :=
  [.str [10] m.issuer,
   .optMsg [18] (m.client.map Client.parts),
   .str [26] m.subject,
   .optMsg [34] (m.request.map AuthorizationRequest.parts),
   .raw m.unknown]

/-- api/oidc/flow/v1/flow_api_vtproto.pb.go:1214-1399 `UnmarshalVT`. -/
def AuthorizeRequest.fields : List (Nat × Handler AuthorizeRequest) :=
  [(1, onStr fun s m => { m with issuer := s }),
   (2, onMsg (fun m => m.client.getD {}) (fun s m => { m with client := some s }) Client.unmarshal),
   (3, onStr fun s m => { m with subject := s }),
   (4, onMsg (fun m => m.request.getD {}) (fun s m => { m with request := some s }) AuthorizationRequest.unmarshal)]

def AuthorizeRequest.keep (u : Str) (m : AuthorizeRequest) : AuthorizeRequest := { m with unknown := m.unknown ++ u }

def AuthorizeRequest.unmarshal (m : AuthorizeRequest) (d : Str) : Out AuthorizeRequest := Wire.unmarshal AuthorizeRequest.fields AuthorizeRequest.keep m d

def AuthorizeRequest.marshal (m : AuthorizeRequest) : Option Str := Wire.marshal m.parts

/-! #### `AuthorizeResponse` -/

structure AuthorizeResponse where
  error : Option Error := none
  code : Str := []
  state : Str := []
  redirectUri : Str := []
  clientId : Str := []
  expiresIn : UInt64 := 0
  issuer : Str := []
  responseMode : Str := []
  unknown : Str := []

/-- api/oidc/flow/v1/flow_api_vtproto.pb.go:111-181 `MarshalToSizedBufferVT`, 879-917 `SizeVT`. -/
def AuthorizeResponse.parts (m : AuthorizeResponse) : List Part :=
  [.optMsg [10] (m.error.map Error.parts),
   .str [18] m.code,
   .str [26] m.state,
   .str [34] m.redirectUri,
   .str [42] m.clientId,
   .fix [49] m.expiresIn,
   .str [58] m.issuer,
   .str [66] m.responseMode,
   .raw m.unknown]

/-- api/oidc/flow/v1/flow_api_vtproto.pb.go:1401-1688 `UnmarshalVT`. -/
def AuthorizeResponse.fields : List (Nat × Handler AuthorizeResponse) :=
  [(1, onMsg (fun m => m.error.getD {}) (fun s m => { m with error := some s }) Error.unmarshal),
   (2, onStr fun s m => { m with code := s }),
   (3, onStr fun s m => { m with state := s }),
   (4, onStr fun s m => { m with redirectUri := s }),
   (5, onStr fun s m => { m with clientId := s }),
   (6, onFix fun s m => { m with expiresIn := s }),
   (7, onStr fun s m => { m with issuer := s }),
   (8, onStr fun s m => { m with responseMode := s })]

def AuthorizeResponse.keep (u : Str) (m : AuthorizeResponse) : AuthorizeResponse := { m with unknown := m.unknown ++ u }

def AuthorizeResponse.unmarshal (m : AuthorizeResponse) (d : Str) : Out AuthorizeResponse := Wire.unmarshal AuthorizeResponse.fields AuthorizeResponse.keep m d

def AuthorizeResponse.marshal (m : AuthorizeResponse) : Option Str := Wire.marshal m.parts

/-! #### `TokenConfirmation` -/

structure TokenConfirmation where
  jkt : Str := []
  unknown : Str := []

/-- api/oidc/token/v1/token_vtproto.pb.go:319-338 `MarshalToSizedBufferVT`, 543-554 `SizeVT`. -/
def TokenConfirmation.parts (m : TokenConfirmation) : List Part :=
  [.str [10] m.jkt,
   .raw m.unknown]

/-- api/oidc/token/v1/token_vtproto.pb.go:1418-1499 `UnmarshalVT`. -/
def TokenConfirmation.fields : List (Nat × Handler TokenConfirmation) :=
  [(1, onStr fun s m => { m with jkt := s })]

def TokenConfirmation.keep (u : Str) (m : TokenConfirmation) : TokenConfirmation := { m with unknown := m.unknown ++ u }

def TokenConfirmation.unmarshal (m : TokenConfirmation) (d : Str) : Out TokenConfirmation := Wire.unmarshal TokenConfirmation.fields TokenConfirmation.keep m d

def TokenConfirmation.marshal (m : TokenConfirmation) : Option Str := Wire.marshal m.parts

/-! #### `RegistrationRequest` -/

structure RegistrationRequest where
  issuer : Str := []
  client : Option Client := none
  request : Option AuthorizationRequest := none
  confirmation : Option TokenConfirmation := none
  unknown : Str := []

/-- api/oidc/flow/v1/flow_api_vtproto.pb.go:202-251 `MarshalToSizedBufferVT`, 920-943 `SizeVT`. -/
def RegistrationRequest.parts (m : RegistrationRequest) : List Part :=
  [.str [10] m.issuer,
   .optMsg [18] (m.client.map Client.parts),
   .optMsg [26] (m.request.map AuthorizationRequest.parts),
   .optMsg [34] (m.confirmation.map TokenConfirmation.parts),
   .raw m.unknown]

/-- api/oidc/flow/v1/flow_api_vtproto.pb.go:1690-1879 `UnmarshalVT`. -/
def RegistrationRequest.fields : List (Nat × Handler RegistrationRequest) :=
  [(1, onStr fun s m => { m with issuer := s }),
   (2, onMsg (fun m => m.client.getD {}) (fun s m => { m with client := some s }) Client.unmarshal),
   (3, onMsg (fun m => m.request.getD {}) (fun s m => { m with request := some s }) AuthorizationRequest.unmarshal),
   (4, onMsg (fun m => m.confirmation.getD {}) (fun s m => { m with confirmation := some s }) TokenConfirmation.unmarshal)]

def RegistrationRequest.keep (u : Str) (m : RegistrationRequest) : RegistrationRequest := { m with unknown := m.unknown ++ u }

def RegistrationRequest.unmarshal (m : RegistrationRequest) (d : Str) : Out RegistrationRequest := Wire.unmarshal RegistrationRequest.fields RegistrationRequest.keep m d

def RegistrationRequest.marshal (m : RegistrationRequest) : Option Str := Wire.marshal m.parts

/-! #### `RegistrationResponse` -/

structure RegistrationResponse where
  error : Option Error := none
  requestUri : Str := []
  expiresIn : UInt64 := 0
  issuer : Str := []
  unknown : Str := []

/-- api/oidc/flow/v1/flow_api_vtproto.pb.go:272-314 `MarshalToSizedBufferVT`, 946-968 `SizeVT`. -/
def RegistrationResponse.parts (m : RegistrationResponse) : List Part :=
  [.optMsg [10] (m.error.map Error.parts),
   .str [18] m.requestUri,
   .fix [25] m.expiresIn,
   .str [34] m.issuer,
   .raw m.unknown]

/-- api/oidc/flow/v1/flow_api_vtproto.pb.go:1881-2040 `UnmarshalVT`. -/
def RegistrationResponse.fields : List (Nat × Handler RegistrationResponse) :=
  [(1, onMsg (fun m => m.error.getD {}) (fun s m => { m with error := some s }) Error.unmarshal),
   (2, onStr fun s m => { m with requestUri := s }),
   (3, onFix fun s m => { m with expiresIn := s }),
   (4, onStr fun s m => { m with issuer := s })]

def RegistrationResponse.keep (u : Str) (m : RegistrationResponse) : RegistrationResponse := { m with unknown := m.unknown ++ u }

def RegistrationResponse.unmarshal (m : RegistrationResponse) (d : Str) : Out RegistrationResponse := Wire.unmarshal RegistrationResponse.fields RegistrationResponse.keep m d

def RegistrationResponse.marshal (m : RegistrationResponse) : Option Str := Wire.marshal m.parts

/-! #### `TokenMeta` -/

structure TokenMeta where
  issuer : Str := []
  subject : Str := []
  issuedAt : UInt64 := 0
  notBefore : UInt64 := 0
  expiresAt : UInt64 := 0
  clientId : Str := []
  scope : Str := []
  audience : Str := []
  acr : Option Str := none
  authTime : Option UInt64 := none
  unknown : Str := []

/-- api/oidc/token/v1/token_vtproto.pb.go:41-119 `MarshalToSizedBufferVT`, 419-462 `SizeVT`. -/
def TokenMeta.parts (m : TokenMeta) : List Part :=
  [.str [10] m.issuer,
   .str [18] m.subject,
   .fix [25] m.issuedAt,
   .fix [33] m.notBefore,
   .fix [41] m.expiresAt,
   .str [50] m.clientId,
   .str [58] m.scope,
   .str [66] m.audience,
   .optStr [74] m.acr,
   .optFix [81] m.authTime,
   .raw m.unknown]

/-- api/oidc/token/v1/token_vtproto.pb.go:592-875 `UnmarshalVT`. -/
def TokenMeta.fields : List (Nat × Handler TokenMeta) :=
  [(1, onStr fun s m => { m with issuer := s }),
   (2, onStr fun s m => { m with subject := s }),
   (3, onFix fun s m => { m with issuedAt := s }),
   (4, onFix fun s m => { m with notBefore := s }),
   (5, onFix fun s m => { m with expiresAt := s }),
   (6, onStr fun s m => { m with clientId := s }),
   (7, onStr fun s m => { m with scope := s }),
   (8, onStr fun s m => { m with audience := s }),
   (9, onStr fun s m => { m with acr := some s }),
   (10, onFix fun s m => { m with authTime := some s })]

def TokenMeta.keep (u : Str) (m : TokenMeta) : TokenMeta := { m with unknown := m.unknown ++ u }

def TokenMeta.unmarshal (m : TokenMeta) (d : Str) : Out TokenMeta := Wire.unmarshal TokenMeta.fields TokenMeta.keep m d

def TokenMeta.marshal (m : TokenMeta) : Option Str := Wire.marshal m.parts

/-! #### `Actor` -/

structure Actor where
  issuer : Str := []
  subject : Str := []
  clientId : Str := []
  act : Option Actor := none
  unknown : Str := []

mutual
/-- api/oidc/token/v1/token_vtproto.pb.go:140-183 `MarshalToSizedBufferVT`, 465-488 `SizeVT`. -/
def Actor.parts : Actor → List Part
  | ⟨issuer, subject, clientId, act, unknown⟩ =>
    [.str [10] issuer,
     .str [18] subject,
     .str [26] clientId,
     .optMsg [34] (Actor.optParts act),
     .raw unknown]
def Actor.optParts : Option Actor → Option (List Part)
  | none => none
  | some a => some a.parts
end

/-- api/oidc/token/v1/token_vtproto.pb.go:877-1058 `UnmarshalVT`. -/
def Actor.fields (dec : Actor → Str → Out Actor) : List (Nat × Handler Actor) :=
  [(1, onStr fun s m => { m with issuer := s }),
   (2, onStr fun s m => { m with subject := s }),
   (3, onStr fun s m => { m with clientId := s }),
   (4, onMsg (fun m => m.act.getD {}) (fun s m => { m with act := some s }) dec)]

def Actor.keep (u : Str) (m : Actor) : Actor := { m with unknown := m.unknown ++ u }

/-- The decoder up to a depth. -/
def Actor.decode : Nat → Actor → Str → Out Actor
  | 0, _, _ => .err
  | n + 1, m, d => Wire.unmarshal (Actor.fields (Actor.decode n)) Actor.keep m d

def Actor.unmarshal (m : Actor) (d : Str) : Out Actor := Actor.decode (d.length + 1) m d

def Actor.marshal (m : Actor) : Option Str := Wire.marshal m.parts


/-! #### `Token` -/

structure Token where
  issuer : Str := []
  tokenType : UInt32 := 0
  tokenId : Str := []
  metadata : Option TokenMeta := none
  status : UInt32 := 0
  value : Str := []
  phantom : Option Str := none
  confirmation : Option TokenConfirmation := none
  actor : List Actor := []
  mayAct : List Actor := []
  unknown : Str := []

/-- api/oidc/token/v1/token_vtproto.pb.go:204-298 `MarshalToSizedBufferVT`, 491-540 `SizeVT`. -/
def Token.parts (m : Token) : List Part :=
  [.str [10] m.issuer,
   .enum [16] m.tokenType,
   .str [26] m.tokenId,
   .optMsg [34] (m.metadata.map TokenMeta.parts),
   .enum [40] m.status,
   .str [50] m.value,
   .optStr [58] m.phantom,
   .optMsg [66] (m.confirmation.map TokenConfirmation.parts),
   .all (m.actor.map fun x => .msg [74] x.parts),
   .all (m.mayAct.map fun x => .msg [82] x.parts),
   .raw m.unknown]

/-- api/oidc/token/v1/token_vtproto.pb.go:1060-1416 `UnmarshalVT`. -/
def Token.fields : List (Nat × Handler Token) :=
  [(1, onStr fun s m => { m with issuer := s }),
   (2, onEnum fun s m => { m with tokenType := s }),
   (3, onStr fun s m => { m with tokenId := s }),
   (4, onMsg (fun m => m.metadata.getD {}) (fun s m => { m with metadata := some s }) TokenMeta.unmarshal),
   (5, onEnum fun s m => { m with status := s }),
   (6, onStr fun s m => { m with value := s }),
   (7, onStr fun s m => { m with phantom := some s }),
   (8, onMsg (fun m => m.confirmation.getD {}) (fun s m => { m with confirmation := some s }) TokenConfirmation.unmarshal),
   (9, onMsg (fun _ => {}) (fun s m => { m with actor := m.actor ++ [s] }) Actor.unmarshal),
   (10, onMsg (fun _ => {}) (fun s m => { m with mayAct := m.mayAct ++ [s] }) Actor.unmarshal)]

def Token.keep (u : Str) (m : Token) : Token := { m with unknown := m.unknown ++ u }

def Token.unmarshal (m : Token) (d : Str) : Out Token := Wire.unmarshal Token.fields Token.keep m d

def Token.marshal (m : Token) : Option Str := Wire.marshal m.parts

/-! #### `TokenResponse` -/

structure TokenResponse where
  error : Option Error := none
  accessToken : Option Token := none
  refreshToken : Option Token := none
  idToken : Option Token := none
  issuer : Str := []
  issuedTokenType : Option Str := none
  scope : Option Str := none
  unknown : Str := []

/-- api/oidc/flow/v1/flow_api_vtproto.pb.go:529-602 `MarshalToSizedBufferVT`, 1074-1109 `SizeVT`. -/
def TokenResponse.parts (m : TokenResponse) : List Part :=
  [.optMsg [10] (m.error.map Error.parts),
   .optMsg [18] (m.accessToken.map Token.parts),
   .optMsg [26] (m.refreshToken.map Token.parts),
   .optMsg [34] (m.idToken.map Token.parts),
   .str [42] m.issuer,
   .optStr [50] m.issuedTokenType,
   .optStr [58] m.scope,
   .raw m.unknown]

/-- api/oidc/flow/v1/flow_api_vtproto.pb.go:2532-2823 `UnmarshalVT`. -/
def TokenResponse.fields : List (Nat × Handler TokenResponse) :=
  [(1, onMsg (fun m => m.error.getD {}) (fun s m => { m with error := some s }) Error.unmarshal),
   (2, onMsg (fun m => m.accessToken.getD {}) (fun s m => { m with accessToken := some s }) Token.unmarshal),
   (3, onMsg (fun m => m.refreshToken.getD {}) (fun s m => { m with refreshToken := some s }) Token.unmarshal),
   (4, onMsg (fun m => m.idToken.getD {}) (fun s m => { m with idToken := some s }) Token.unmarshal),
   (5, onStr fun s m => { m with issuer := s }),
   (6, onStr fun s m => { m with issuedTokenType := some s }),
   (7, onStr fun s m => { m with scope := some s })]

def TokenResponse.keep (u : Str) (m : TokenResponse) : TokenResponse := { m with unknown := m.unknown ++ u }

def TokenResponse.unmarshal (m : TokenResponse) (d : Str) : Out TokenResponse := Wire.unmarshal TokenResponse.fields TokenResponse.keep m d

def TokenResponse.marshal (m : TokenResponse) : Option Str := Wire.marshal m.parts

/-! #### `DeviceAuthorizationRequest` -/

structure DeviceAuthorizationRequest where
  issuer : Str := []
  clientId : Str := []
  scope : Option Str := none
  audience : Option Str := none
  unknown : Str := []

/-- api/oidc/flow/v1/flow_api_vtproto.pb.go:623-663 `MarshalToSizedBufferVT`, 1112-1135 `SizeVT`. -/
def DeviceAuthorizationRequest.parts (m : DeviceAuthorizationRequest) : List Part :=
  [.str [10] m.issuer,
   .str [18] m.clientId,
   .optStr [26] m.scope,
   .optStr [34] m.audience,
   .raw m.unknown]

/-- api/oidc/flow/v1/flow_api_vtproto.pb.go:2825-3004 `UnmarshalVT`. -/
def DeviceAuthorizationRequest.fields : List (Nat × Handler DeviceAuthorizationRequest) :=
  [(1, onStr fun s m => { m with issuer := s }),
   (2, onStr fun s m => { m with clientId := s }),
   (3, onStr fun s m => { m with scope := some s }),
   (4, onStr fun s m => { m with audience := some s })]

def DeviceAuthorizationRequest.keep (u : Str) (m : DeviceAuthorizationRequest) : DeviceAuthorizationRequest := { m with unknown := m.unknown ++ u }

def DeviceAuthorizationRequest.unmarshal (m : DeviceAuthorizationRequest) (d : Str) : Out DeviceAuthorizationRequest := Wire.unmarshal DeviceAuthorizationRequest.fields DeviceAuthorizationRequest.keep m d

def DeviceAuthorizationRequest.marshal (m : DeviceAuthorizationRequest) : Option Str := Wire.marshal m.parts

/-! #### `DeviceAuthorizationResponse` -/

structure DeviceAuthorizationResponse where
  error : Option Error := none
  deviceCode : Str := []
  userCode : Str := []
  verificationUri : Str := []
  verificationUriComplete : Option Str := none
  expiresIn : UInt64 := 0
  interval : UInt64 := 0
  issuer : Str := []
  unknown : Str := []

/-- api/oidc/flow/v1/flow_api_vtproto.pb.go:684-753 `MarshalToSizedBufferVT`, 1138-1175 `SizeVT`. -/
def DeviceAuthorizationResponse.parts (m : DeviceAuthorizationResponse) : List Part :=
  [.optMsg [10] (m.error.map Error.parts),
   .str [18] m.deviceCode,
   .str [26] m.userCode,
   .str [34] m.verificationUri,
   .optStr [42] m.verificationUriComplete,
   .fix [49] m.expiresIn,
   .fix [57] m.interval,
   .str [66] m.issuer,
   .raw m.unknown]

/-- api/oidc/flow/v1/flow_api_vtproto.pb.go:3006-3272 `UnmarshalVT`. -/
def DeviceAuthorizationResponse.fields : List (Nat × Handler DeviceAuthorizationResponse) :=
  [(1, onMsg (fun m => m.error.getD {}) (fun s m => { m with error := some s }) Error.unmarshal),
   (2, onStr fun s m => { m with deviceCode := s }),
   (3, onStr fun s m => { m with userCode := s }),
   (4, onStr fun s m => { m with verificationUri := s }),
   (5, onStr fun s m => { m with verificationUriComplete := some s }),
   (6, onFix fun s m => { m with expiresIn := s }),
   (7, onFix fun s m => { m with interval := s }),
   (8, onStr fun s m => { m with issuer := s })]

def DeviceAuthorizationResponse.keep (u : Str) (m : DeviceAuthorizationResponse) : DeviceAuthorizationResponse := { m with unknown := m.unknown ++ u }

def DeviceAuthorizationResponse.unmarshal (m : DeviceAuthorizationResponse) (d : Str) : Out DeviceAuthorizationResponse := Wire.unmarshal DeviceAuthorizationResponse.fields DeviceAuthorizationResponse.keep m d

def DeviceAuthorizationResponse.marshal (m : DeviceAuthorizationResponse) : Option Str := Wire.marshal m.parts

/-! #### `DeviceCodeValidationRequest` -/

structure DeviceCodeValidationRequest where
  issuer : Str := []
  userCode : Str := []
  subject : Str := []
  unknown : Str := []

/-- api/oidc/flow/v1/flow_api_vtproto.pb.go:774-807 `MarshalToSizedBufferVT`, 1178-1197 `SizeVT`. -/
def DeviceCodeValidationRequest.parts (m : DeviceCodeValidationRequest) : List Part :=
  [.str [10] m.issuer,
   .str [18] m.userCode,
   .str [26] m.subject,
   .raw m.unknown]

/-- api/oidc/flow/v1/flow_api_vtproto.pb.go:3274-3419 `UnmarshalVT`. -/
def DeviceCodeValidationRequest.fields : List (Nat × Handler DeviceCodeValidationRequest) :=
  [(1, onStr fun s m => { m with issuer := s }),
   (2, onStr fun s m => { m with userCode := s }),
   (3, onStr fun s m => { m with subject := s })]

def DeviceCodeValidationRequest.keep (u : Str) (m : DeviceCodeValidationRequest) : DeviceCodeValidationRequest := { m with unknown := m.unknown ++ u }

def DeviceCodeValidationRequest.unmarshal (m : DeviceCodeValidationRequest) (d : Str) : Out DeviceCodeValidationRequest := Wire.unmarshal DeviceCodeValidationRequest.fields DeviceCodeValidationRequest.keep m d

def DeviceCodeValidationRequest.marshal (m : DeviceCodeValidationRequest) : Option Str := Wire.marshal m.parts

/-! #### `DeviceCodeValidationResponse` -/

structure DeviceCodeValidationResponse where
  error : Option Error := none
  unknown : Str := []

/-- api/oidc/flow/v1/flow_api_vtproto.pb.go:828-850 `MarshalToSizedBufferVT`, 1200-1211 `SizeVT`. -/
def DeviceCodeValidationResponse.parts (m : DeviceCodeValidationResponse) : List Part :=
  [.optMsg [10] (m.error.map Error.parts),
   .raw m.unknown]

/-- api/oidc/flow/v1/flow_api_vtproto.pb.go:3421-3506 `UnmarshalVT`. -/
def DeviceCodeValidationResponse.fields : List (Nat × Handler DeviceCodeValidationResponse) :=
  [(1, onMsg (fun m => m.error.getD {}) (fun s m => { m with error := some s }) Error.unmarshal)]

def DeviceCodeValidationResponse.keep (u : Str) (m : DeviceCodeValidationResponse) : DeviceCodeValidationResponse := { m with unknown := m.unknown ++ u }

def DeviceCodeValidationResponse.unmarshal (m : DeviceCodeValidationResponse) (d : Str) : Out DeviceCodeValidationResponse := Wire.unmarshal DeviceCodeValidationResponse.fields DeviceCodeValidationResponse.keep m d

def DeviceCodeValidationResponse.marshal (m : DeviceCodeValidationResponse) : Option Str := Wire.marshal m.parts

/-! #### `GrantAuthorizationCode` -/

structure GrantAuthorizationCode where
  code : Str := []
  redirectUri : Str := []
  codeVerifier : Str := []
  dpopJkt : Option Str := none
  unknown : Str := []

/-- api/oidc/flow/v1/token_grant_vtproto.pb.go:39-79 `MarshalToSizedBufferVT`, 270-293 `SizeVT`. -/
def GrantAuthorizationCode.parts (m : GrantAuthorizationCode) : List Part :=
  [.str [10] m.code,
   .str [18] m.redirectUri,
   .str [26] m.codeVerifier,
   .optStr [34] m.dpopJkt,
   .raw m.unknown]

/-- api/oidc/flow/v1/token_grant_vtproto.pb.go:368-546 `UnmarshalVT`. -/
def GrantAuthorizationCode.fields : List (Nat × Handler GrantAuthorizationCode) :=
  [(1, onStr fun s m => { m with code := s }),
   (2, onStr fun s m => { m with redirectUri := s }),
   (3, onStr fun s m => { m with codeVerifier := s }),
   (4, onStr fun s m => { m with dpopJkt := some s })]

def GrantAuthorizationCode.keep (u : Str) (m : GrantAuthorizationCode) : GrantAuthorizationCode := { m with unknown := m.unknown ++ u }

def GrantAuthorizationCode.unmarshal (m : GrantAuthorizationCode) (d : Str) : Out GrantAuthorizationCode := Wire.unmarshal GrantAuthorizationCode.fields GrantAuthorizationCode.keep m d

def GrantAuthorizationCode.marshal (m : GrantAuthorizationCode) : Option Str := Wire.marshal m.parts

/-! #### `GrantRefreshToken` -/

structure GrantRefreshToken where
  refreshToken : Str := []
  unknown : Str := []

/-- api/oidc/flow/v1/token_grant_vtproto.pb.go:100-119 `MarshalToSizedBufferVT`, 296-307 `SizeVT`. -/
def GrantRefreshToken.parts (m : GrantRefreshToken) : List Part :=
  [.str [10] m.refreshToken,
   .raw m.unknown]

/-- api/oidc/flow/v1/token_grant_vtproto.pb.go:548-629 `UnmarshalVT`. -/
def GrantRefreshToken.fields : List (Nat × Handler GrantRefreshToken) :=
  [(1, onStr fun s m => { m with refreshToken := s })]

def GrantRefreshToken.keep (u : Str) (m : GrantRefreshToken) : GrantRefreshToken := { m with unknown := m.unknown ++ u }

def GrantRefreshToken.unmarshal (m : GrantRefreshToken) (d : Str) : Out GrantRefreshToken := Wire.unmarshal GrantRefreshToken.fields GrantRefreshToken.keep m d

def GrantRefreshToken.marshal (m : GrantRefreshToken) : Option Str := Wire.marshal m.parts

/-! #### `GrantDeviceCode` -/

structure GrantDeviceCode where
  deviceCode : Str := []
  clientId : Str := []
  unknown : Str := []

/-- api/oidc/flow/v1/token_grant_vtproto.pb.go:140-166 `MarshalToSizedBufferVT`, 310-325 `SizeVT`. -/
def GrantDeviceCode.parts (m : GrantDeviceCode) : List Part :=
  [.str [10] m.deviceCode,
   .str [18] m.clientId,
   .raw m.unknown]

/-- api/oidc/flow/v1/token_grant_vtproto.pb.go:631-744 `UnmarshalVT`. -/
def GrantDeviceCode.fields : List (Nat × Handler GrantDeviceCode) :=
  [(1, onStr fun s m => { m with deviceCode := s }),
   (2, onStr fun s m => { m with clientId := s })]

def GrantDeviceCode.keep (u : Str) (m : GrantDeviceCode) : GrantDeviceCode := { m with unknown := m.unknown ++ u }

def GrantDeviceCode.unmarshal (m : GrantDeviceCode) (d : Str) : Out GrantDeviceCode := Wire.unmarshal GrantDeviceCode.fields GrantDeviceCode.keep m d

def GrantDeviceCode.marshal (m : GrantDeviceCode) : Option Str := Wire.marshal m.parts

/-! #### `GrantClientCredentials` -/

structure GrantClientCredentials where
  unknown : Str := []

/-- api/oidc/flow/v1/token_grant_vtproto.pb.go:187-199 `MarshalToSizedBufferVT`, 328-335 `SizeVT`. -/
def GrantClientCredentials.parts (m : GrantClientCredentials) : List Part :=
  [.raw m.unknown]

/-- api/oidc/flow/v1/token_grant_vtproto.pb.go:746-795 `UnmarshalVT`. -/
def GrantClientCredentials.fields : List (Nat × Handler GrantClientCredentials) :=
  []

def GrantClientCredentials.keep (u : Str) (m : GrantClientCredentials) : GrantClientCredentials := { m with unknown := m.unknown ++ u }

def GrantClientCredentials.unmarshal (m : GrantClientCredentials) (d : Str) : Out GrantClientCredentials := Wire.unmarshal GrantClientCredentials.fields GrantClientCredentials.keep m d

def GrantClientCredentials.marshal (m : GrantClientCredentials) : Option Str := Wire.marshal m.parts

/-! #### `GrantTokenExchange` -/

structure GrantTokenExchange where
  requestedTokenType : Option Str := none
  subjectToken : Str := []
  subjectTokenType : Str := []
  actorToken : Option Str := none
  actorTokenType : Option Str := none
  unknown : Str := []

/-- api/oidc/flow/v1/token_grant_vtproto.pb.go:220-267 `MarshalToSizedBufferVT`, 338-365 `SizeVT`. -/
def GrantTokenExchange.parts (m : GrantTokenExchange) : List Part :=
  [.optStr [10] m.requestedTokenType,
   .str [18] m.subjectToken,
   .str [26] m.subjectTokenType,
   .optStr [34] m.actorToken,
   .optStr [42] m.actorTokenType,
   .raw m.unknown]

/-- api/oidc/flow/v1/token_grant_vtproto.pb.go:797-1009 `UnmarshalVT`. -/
def GrantTokenExchange.fields : List (Nat × Handler GrantTokenExchange) :=
  [(1, onStr fun s m => { m with requestedTokenType := some s }),
   (2, onStr fun s m => { m with subjectToken := s }),
   (3, onStr fun s m => { m with subjectTokenType := s }),
   (4, onStr fun s m => { m with actorToken := some s }),
   (5, onStr fun s m => { m with actorTokenType := some s })]

def GrantTokenExchange.keep (u : Str) (m : GrantTokenExchange) : GrantTokenExchange := { m with unknown := m.unknown ++ u }

def GrantTokenExchange.unmarshal (m : GrantTokenExchange) (d : Str) : Out GrantTokenExchange := Wire.unmarshal GrantTokenExchange.fields GrantTokenExchange.keep m d

def GrantTokenExchange.marshal (m : GrantTokenExchange) : Option Str := Wire.marshal m.parts

/-! #### `Resource` -/

structure Resource where
  urn : Str := []
  description : Str := []
  urls : List Str := []
  unknown : Str := []

/-- api/oidc/resource/v1/resource_vtproto.pb.go:40-75 `MarshalToSizedBufferVT`, 89-110 `SizeVT`. -/
def Resource.parts (m : Resource) : List Part :=
  [.str [10] m.urn,
   .str [18] m.description,
   .all (m.urls.map (.bytes [26])),
   .raw m.unknown]

/-- api/oidc/resource/v1/resource_vtproto.pb.go:119-264 `UnmarshalVT`. -/
def Resource.fields : List (Nat × Handler Resource) :=
  [(1, onStr fun s m => { m with urn := s }),
   (2, onStr fun s m => { m with description := s }),
   (3, onStr fun s m => { m with urls := m.urls ++ [s] })]

def Resource.keep (u : Str) (m : Resource) : Resource := { m with unknown := m.unknown ++ u }

def Resource.unmarshal (m : Resource) (d : Str) : Out Resource := Wire.unmarshal Resource.fields Resource.keep m d

def Resource.marshal (m : Resource) : Option Str := Wire.marshal m.parts

/-! #### `AuthorizationCodeSession` -/

structure AuthorizationCodeSession where
  client : Option Client := none
  issuer : Str := []
  subject : Str := []
  request : Option AuthorizationRequest := none
  unknown : Str := []

/-- api/oidc/session/v1/session_vtproto.pb.go:44-90 `MarshalToSizedBufferVT`, 210-233 `SizeVT`. -/
def AuthorizationCodeSession.parts (m : AuthorizationCodeSession) : List Part :=
  [.optMsg [10] (m.client.map Client.parts),
   .str [18] m.issuer,
   .str [26] m.subject,
   .optMsg [34] (m.request.map AuthorizationRequest.parts),
   .raw m.unknown]

/-- api/oidc/session/v1/session_vtproto.pb.go:290-475 `UnmarshalVT`. -/
def AuthorizationCodeSession.fields : List (Nat × Handler AuthorizationCodeSession) :=
  [(1, onMsg (fun m => m.client.getD {}) (fun s m => { m with client := some s }) Client.unmarshal),
   (2, onStr fun s m => { m with issuer := s }),
   (3, onStr fun s m => { m with subject := s }),
   (4, onMsg (fun m => m.request.getD {}) (fun s m => { m with request := some s }) AuthorizationRequest.unmarshal)]

def AuthorizationCodeSession.keep (u : Str) (m : AuthorizationCodeSession) : AuthorizationCodeSession := { m with unknown := m.unknown ++ u }

def AuthorizationCodeSession.unmarshal (m : AuthorizationCodeSession) (d : Str) : Out AuthorizationCodeSession := Wire.unmarshal AuthorizationCodeSession.fields AuthorizationCodeSession.keep m d

def AuthorizationCodeSession.marshal (m : AuthorizationCodeSession) : Option Str := Wire.marshal m.parts

/-! #### `DeviceCodeSession` -/

structure DeviceCodeSession where
  client : Option Client := none
  issuer : Str := []
  expiresAt : UInt64 := 0
  request : Option DeviceAuthorizationRequest := none
  status : UInt32 := 0
  deviceCode : Str := []
  confirmationCode : Str := []
  subject : Option Str := none
  scope : Option Str := none
  audience : Option Str := none
  unknown : Str := []

/-- api/oidc/session/v1/session_vtproto.pb.go:111-196 `MarshalToSizedBufferVT`, 236-281 `SizeVT`. -/
def DeviceCodeSession.parts (m : DeviceCodeSession) : List Part :=
  [.optMsg [10] (m.client.map Client.parts),
   .str [18] m.issuer,
   .fix [25] m.expiresAt,
   .optMsg [34] (m.request.map DeviceAuthorizationRequest.parts),
   .enum [40] m.status,
   .str [50] m.deviceCode,
   .str [58] m.confirmationCode,
   .optStr [66] m.subject,
   .optStr [74] m.scope,
   .optStr [82] m.audience,
   .raw m.unknown]

/-- api/oidc/session/v1/session_vtproto.pb.go:477-822 `UnmarshalVT`. -/
def DeviceCodeSession.fields : List (Nat × Handler DeviceCodeSession) :=
  [(1, onMsg (fun m => m.client.getD {}) (fun s m => { m with client := some s }) Client.unmarshal),
   (2, onStr fun s m => { m with issuer := s }),
   (3, onFix fun s m => { m with expiresAt := s }),
   (4, onMsg (fun m => m.request.getD {}) (fun s m => { m with request := some s }) DeviceAuthorizationRequest.unmarshal),
   (5, onEnum fun s m => { m with status := s }),
   (6, onStr fun s m => { m with deviceCode := s }),
   (7, onStr fun s m => { m with confirmationCode := s }),
   (8, onStr fun s m => { m with subject := some s }),
   (9, onStr fun s m => { m with scope := some s }),
   (10, onStr fun s m => { m with audience := some s })]

def DeviceCodeSession.keep (u : Str) (m : DeviceCodeSession) : DeviceCodeSession := { m with unknown := m.unknown ++ u }

def DeviceCodeSession.unmarshal (m : DeviceCodeSession) (d : Str) : Out DeviceCodeSession := Wire.unmarshal DeviceCodeSession.fields DeviceCodeSession.keep m d

def DeviceCodeSession.marshal (m : DeviceCodeSession) : Option Str := Wire.marshal m.parts

/-! #### `IntrospectRequest` -/

structure IntrospectRequest where
  issuer : Str := []
  client : Option Client := none
  token : Str := []
  tokenTypeHint : Option Str := none
  unknown : Str := []

/-- api/oidc/token/v1/introspection_api_vtproto.pb.go:42-85 `MarshalToSizedBufferVT`, 141-164 `SizeVT`. -/
def IntrospectRequest.parts (m : IntrospectRequest) : List Part :=
  [.str [10] m.issuer,
   .optMsg [18] (m.client.map Client.parts),
   .str [26] m.token,
   .optStr [34] m.tokenTypeHint,
   .raw m.unknown]

/-- api/oidc/token/v1/introspection_api_vtproto.pb.go:185-367 `UnmarshalVT`. -/
def IntrospectRequest.fields : List (Nat × Handler IntrospectRequest) :=
  [(1, onStr fun s m => { m with issuer := s }),
   (2, onMsg (fun m => m.client.getD {}) (fun s m => { m with client := some s }) Client.unmarshal),
   (3, onStr fun s m => { m with token := s }),
   (4, onStr fun s m => { m with tokenTypeHint := some s })]

def IntrospectRequest.keep (u : Str) (m : IntrospectRequest) : IntrospectRequest := { m with unknown := m.unknown ++ u }

def IntrospectRequest.unmarshal (m : IntrospectRequest) (d : Str) : Out IntrospectRequest := Wire.unmarshal IntrospectRequest.fields IntrospectRequest.keep m d

def IntrospectRequest.marshal (m : IntrospectRequest) : Option Str := Wire.marshal m.parts

/-! #### `IntrospectResponse` -/

structure IntrospectResponse where
  error : Option Error := none
  token : Option Token := none
  unknown : Str := []

/-- api/oidc/token/v1/introspection_api_vtproto.pb.go:106-138 `MarshalToSizedBufferVT`, 167-182 `SizeVT`. -/
def IntrospectResponse.parts (m : IntrospectResponse) : List Part :=
  [.optMsg [10] (m.error.map Error.parts),
   .optMsg [18] (m.token.map Token.parts),
   .raw m.unknown]

/-- api/oidc/token/v1/introspection_api_vtproto.pb.go:369-490 `UnmarshalVT`. -/
def IntrospectResponse.fields : List (Nat × Handler IntrospectResponse) :=
  [(1, onMsg (fun m => m.error.getD {}) (fun s m => { m with error := some s }) Error.unmarshal),
   (2, onMsg (fun m => m.token.getD {}) (fun s m => { m with token := some s }) Token.unmarshal)]

def IntrospectResponse.keep (u : Str) (m : IntrospectResponse) : IntrospectResponse := { m with unknown := m.unknown ++ u }

def IntrospectResponse.unmarshal (m : IntrospectResponse) (d : Str) : Out IntrospectResponse := Wire.unmarshal IntrospectResponse.fields IntrospectResponse.keep m d

def IntrospectResponse.marshal (m : IntrospectResponse) : Option Str := Wire.marshal m.parts

/-! #### `RevokeRequest` -/

structure RevokeRequest where
  issuer : Str := []
  client : Option Client := none
  token : Str := []
  tokenTypeHint : Option Str := none
  unknown : Str := []

/-- api/oidc/token/v1/revocation_api_vtproto.pb.go:42-85 `MarshalToSizedBufferVT`, 131-154 `SizeVT`. -/
def RevokeRequest.parts (m : RevokeRequest) : List Part :=
  [.str [10] m.issuer,
   .optMsg [18] (m.client.map Client.parts),
   .str [26] m.token,
   .optStr [34] m.tokenTypeHint,
   .raw m.unknown]

/-- api/oidc/token/v1/revocation_api_vtproto.pb.go:171-353 `UnmarshalVT`. -/
def RevokeRequest.fields : List (Nat × Handler RevokeRequest) :=
  [(1, onStr fun s m => { m with issuer := s }),
   (2, onMsg (fun m => m.client.getD {}) (fun s m => { m with client := some s }) Client.unmarshal),
   (3, onStr fun s m => { m with token := s }),
   (4, onStr fun s m => { m with tokenTypeHint := some s })]

def RevokeRequest.keep (u : Str) (m : RevokeRequest) : RevokeRequest := { m with unknown := m.unknown ++ u }

def RevokeRequest.unmarshal (m : RevokeRequest) (d : Str) : Out RevokeRequest := Wire.unmarshal RevokeRequest.fields RevokeRequest.keep m d

def RevokeRequest.marshal (m : RevokeRequest) : Option Str := Wire.marshal m.parts

/-! #### `RevokeResponse` -/

structure RevokeResponse where
  error : Option Error := none
  unknown : Str := []

/-- api/oidc/token/v1/revocation_api_vtproto.pb.go:106-128 `MarshalToSizedBufferVT`, 157-168 `SizeVT`. -/
def RevokeResponse.parts (m : RevokeResponse) : List Part :=
  [.optMsg [10] (m.error.map Error.parts),
   .raw m.unknown]

/-- api/oidc/token/v1/revocation_api_vtproto.pb.go:355-440 `UnmarshalVT`. -/
def RevokeResponse.fields : List (Nat × Handler RevokeResponse) :=
  [(1, onMsg (fun m => m.error.getD {}) (fun s m => { m with error := some s }) Error.unmarshal)]

def RevokeResponse.keep (u : Str) (m : RevokeResponse) : RevokeResponse := { m with unknown := m.unknown ++ u }

def RevokeResponse.unmarshal (m : RevokeResponse) (d : Str) : Out RevokeResponse := Wire.unmarshal RevokeResponse.fields RevokeResponse.keep m d

def RevokeResponse.marshal (m : RevokeResponse) : Option Str := Wire.marshal m.parts

/-! #### `OAuthTokenResponse` -/

structure OAuthTokenResponse where
  accessToken : Str := []
  tokenType : Str := []
  expiresIn : UInt64 := 0
  refreshToken : Option Str := none
  idToken : Option Str := none
  unknown : Str := []

/-- api/oidc/token/v1/token_vtproto.pb.go:359-405 `MarshalToSizedBufferVT`, 557-583 `SizeVT`. -/
def OAuthTokenResponse.parts (m : OAuthTokenResponse) : List Part :=
  [.str [10] m.accessToken,
   .str [18] m.tokenType,
   .fix [25] m.expiresIn,
   .optStr [34] m.refreshToken,
   .optStr [42] m.idToken,
   .raw m.unknown]

/-- api/oidc/token/v1/token_vtproto.pb.go:1501-1690 `UnmarshalVT`. -/
def OAuthTokenResponse.fields : List (Nat × Handler OAuthTokenResponse) :=
  [(1, onStr fun s m => { m with accessToken := s }),
   (2, onStr fun s m => { m with tokenType := s }),
   (3, onFix fun s m => { m with expiresIn := s }),
   (4, onStr fun s m => { m with refreshToken := some s }),
   (5, onStr fun s m => { m with idToken := some s })]

def OAuthTokenResponse.keep (u : Str) (m : OAuthTokenResponse) : OAuthTokenResponse := { m with unknown := m.unknown ++ u }

def OAuthTokenResponse.unmarshal (m : OAuthTokenResponse) (d : Str) : Out OAuthTokenResponse := Wire.unmarshal OAuthTokenResponse.fields OAuthTokenResponse.keep m d

def OAuthTokenResponse.marshal (m : OAuthTokenResponse) : Option Str := Wire.marshal m.parts

/-! #### `TokenRequest` -/

/-- The `oneof` of a token request. -/
inductive Grant where
  | authorizationCode (x : GrantAuthorizationCode)
  | clientCredentials (x : GrantClientCredentials)
  | deviceCode (x : GrantDeviceCode)
  | refreshToken (x : GrantRefreshToken)
  | tokenExchange (x : GrantTokenExchange)

/-- api/oidc/flow/v1/flow_api_vtproto.pb.go:416-510, 1014-1073. -/
def _root_.Verif.Wire.Part.ofGrant : Option Grant → Part
  | none => .nil
  | some (.authorizationCode x) => .msg [82] x.parts
  | some (.clientCredentials x) => .msg [90] x.parts
  | some (.deviceCode x) => .msg [98] x.parts
  | some (.refreshToken x) => .msg [106] x.parts
  | some (.tokenExchange x) => .msg [114] x.parts

/-- The grant that a second occurrence is merged into. -/
def Grant.authorizationCodeOf : Option Grant → GrantAuthorizationCode
  | some (.authorizationCode x) => x
  | _ => {}

/-- The grant that a second occurrence is merged into. -/
def Grant.clientCredentialsOf : Option Grant → GrantClientCredentials
  | some (.clientCredentials x) => x
  | _ => {}

/-- The grant that a second occurrence is merged into. -/
def Grant.deviceCodeOf : Option Grant → GrantDeviceCode
  | some (.deviceCode x) => x
  | _ => {}

/-- The grant that a second occurrence is merged into. -/
def Grant.refreshTokenOf : Option Grant → GrantRefreshToken
  | some (.refreshToken x) => x
  | _ => {}

/-- The grant that a second occurrence is merged into. -/
def Grant.tokenExchangeOf : Option Grant → GrantTokenExchange
  | some (.tokenExchange x) => x
  | _ => {}


/-! #### `TokenRequest` -/

structure TokenRequest where
  issuer : Str := []
  client : Option Client := none
  grantType : Str := []
  scope : Option Str := none
  tokenConfirmation : Option TokenConfirmation := none
  resource : List Str := []
  audience : Option Str := none
  grant : Option Grant := none
  unknown : Str := []

/-- api/oidc/flow/v1/flow_api_vtproto.pb.go:335-413 `MarshalToSizedBufferVT`, 971-1011 `SizeVT`. -/
def TokenRequest.parts (m : TokenRequest) : List Part :=
  [.str [10] m.issuer,
   .optMsg [18] (m.client.map Client.parts),
   .str [26] m.grantType,
   .optStr [34] m.scope,
   .optMsg [42] (m.tokenConfirmation.map TokenConfirmation.parts),
   .all (m.resource.map (.bytes [50])),
   .optStr [58] m.audience,
   .ofGrant m.grant,
   .raw m.unknown]

/-- api/oidc/flow/v1/flow_api_vtproto.pb.go:2042-2530 `UnmarshalVT`. -/
def TokenRequest.fields : List (Nat × Handler TokenRequest) :=
  [(1, onStr fun s m => { m with issuer := s }),
   (2, onMsg (fun m => m.client.getD {}) (fun s m => { m with client := some s }) Client.unmarshal),
   (3, onStr fun s m => { m with grantType := s }),
   (4, onStr fun s m => { m with scope := some s }),
   (5, onMsg (fun m => m.tokenConfirmation.getD {}) (fun s m => { m with tokenConfirmation := some s }) TokenConfirmation.unmarshal),
   (6, onStr fun s m => { m with resource := m.resource ++ [s] }),
   (7, onStr fun s m => { m with audience := some s }),
   (10, onMsg (fun m => Grant.authorizationCodeOf m.grant) (fun s m => { m with grant := some (.authorizationCode s) })
      GrantAuthorizationCode.unmarshal),
   (11, onMsg (fun m => Grant.clientCredentialsOf m.grant) (fun s m => { m with grant := some (.clientCredentials s) })
      GrantClientCredentials.unmarshal),
   (12, onMsg (fun m => Grant.deviceCodeOf m.grant) (fun s m => { m with grant := some (.deviceCode s) })
      GrantDeviceCode.unmarshal),
   (13, onMsg (fun m => Grant.refreshTokenOf m.grant) (fun s m => { m with grant := some (.refreshToken s) })
      GrantRefreshToken.unmarshal),
   (14, onMsg (fun m => Grant.tokenExchangeOf m.grant) (fun s m => { m with grant := some (.tokenExchange s) })
      GrantTokenExchange.unmarshal)]

def TokenRequest.keep (u : Str) (m : TokenRequest) : TokenRequest := { m with unknown := m.unknown ++ u }

def TokenRequest.unmarshal (m : TokenRequest) (d : Str) : Out TokenRequest := Wire.unmarshal TokenRequest.fields TokenRequest.keep m d

def TokenRequest.marshal (m : TokenRequest) : Option Str := Wire.marshal m.parts

end Verif.Pb
