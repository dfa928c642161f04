import Verif.Spec.Proto
import Verif.Model.PbMap

/-! `ClientMeta` and `RegisterRequest` by their `.proto` files. -/
namespace Verif.Spec.Proto
open Verif.Pb

/-- A map is a repeated field of messages with the key as field 1 and the value as field 2;
both are written, whatever they are. -/
def mapEntry (k v : Str) : Str := record 1 (.string k) ++ record 2 (.string v)

/-- proto/oidc/client/v1/client.proto:115-153. The entries of a map may be in any order. -/
def clientMeta (m : ClientMeta) : Str :=
  encode [(1, .optional (m.applicationType.map fun x => .string x)),
    (2, .repeated (m.redirectUris.map fun x => .string x)),
    (3, .optional (m.tokenEndpointAuthMethod.map fun x => .string x)),
    (4, .repeated (m.grantTypes.map fun x => .string x)),
    (5, .repeated (m.responseTypes.map fun x => .string x)),
    (6, .optional (m.clientName.map fun x => .string x)),
    (7, .repeated (m.clientNameI18N.map fun (k, v) => .message (mapEntry k v))),
    (8, .optional (m.clientUri.map fun x => .string x)),
    (9, .optional (m.logoUri.map fun x => .string x)),
    (10, .repeated (m.logoUriI18N.map fun (k, v) => .message (mapEntry k v))),
    (11, .optional (m.scope.map fun x => .string x)),
    (12, .repeated (m.contacts.map fun x => .string x)),
    (13, .optional (m.tosUri.map fun x => .string x)),
    (14, .repeated (m.tosUriI18N.map fun (k, v) => .message (mapEntry k v))),
    (15, .optional (m.policyUri.map fun x => .string x)),
    (16, .repeated (m.policyUriI18N.map fun (k, v) => .message (mapEntry k v))),
    (17, .optional (m.jwkUri.map fun x => .string x)),
    (18, .optional (m.jwks.map fun x => .bytes x)),
    (19, .optional (m.softwareId.map fun x => .string x)),
    (20, .optional (m.softwareVersion.map fun x => .string x)),
    (21, .optional (m.softwareStatement.map fun x => .string x)),
    (22, .optional (m.subjectType.map fun x => .string x)),
    (23, .optional (m.sectorIdentifier.map fun x => .string x)),
    (24, .optional (m.tlsClientAuthSubjectDn.map fun x => .string x)),
    (25, .optional (m.tlsClientAuthSanDns.map fun x => .string x)),
    (26, .optional (m.tlsClientAuthSanUri.map fun x => .string x)),
    (27, .optional (m.tlsClientAuthSanIp.map fun x => .string x)),
    (28, .optional (m.tlsClientAuthSanEmail.map fun x => .string x)),
    (29, .optional (m.tlsClientCertificateBoundAccessTokens.map fun x => .bool x)),
    (30, .optional (m.introspectionSignedResponseAlg.map fun x => .string x)),
    (31, .optional (m.introspectionEncryptedResponseAlg.map fun x => .string x)),
    (32, .optional (m.introspectionEncryptedResponseEnc.map fun x => .string x)),
    (33, .repeated (m.responseModes.map fun x => .string x)),
    (34, .optional (m.requirePushedAuthorizationRequests.map fun x => .bool x)),
    (35, .optional (m.requireSignedRequestObject.map fun x => .bool x)),
    (36, .optional (m.dpopBoundAccessTokens.map fun x => .bool x))] m.unknown

/-- proto/oidc/client/v1/client_api.proto:55-57. -/
def registerRequest (m : RegisterRequest) : Str :=
  encode [(1, .optional (m.metadata.map fun x => .message (clientMeta x)))] m.unknown

end Verif.Spec.Proto
