import Verif.Model.PbMap
import Verif.Spec.ProtoMap

/-! The fields of the messages of `proto/oidc`: their numbers and types, by the `.proto` files. -/
namespace Verif.Spec.Proto
open Verif.Jose (Out)

/-- The types of fields. An entry of a map is written like a message. -/
inductive FieldType where
  | string | bytes | fixed64 | uint64 | enum | bool | message | map
deriving DecidableEq

/-- 0 is a varint, 1 are eight bytes, 2 is a length and that many bytes. -/
def FieldType.wireType : FieldType → Nat
  | .uint64 | .enum | .bool => 0
  | .fixed64 => 1
  | .string | .bytes | .message | .map => 2

abbrev Schema : Type := List (Nat × FieldType)

/-- What follows a tag of this wire type. -/
def Payload (w : Nat) (p : Str) : Prop :=
  (w = 0 ∧ ∃ v < 2 ^ 64, p = base128 v) ∨ (w = 1 ∧ p.length = 8) ∨ (w = 2 ∧ ∃ s, p = base128 s.length ++ s) ∨ (w = 5 ∧ p.length = 4)

/-- A decoder knows exactly these fields. Wherever a record stands, behind whatever could be decoded: if its number is known
and its type is another one, the input is refused; if its number is not known, the record is kept as it is; a record
without number, or of a type that does not exist, is refused. -/
structure Respects {M : Type} (schema : Schema) (unmarshal : M → Str → Out M) (keep : Str → M → M) : Prop where
  wrong : ∀ m m' a rest n t w, unmarshal m a = .ok m' → (a ++ base128 (n * 8 + w) ++ rest).length < 2 ^ 63 → (n, t) ∈ schema → w < 8 →
    w ≠ t.wireType → unmarshal m (a ++ base128 (n * 8 + w) ++ rest) = .err
  unknown : ∀ m m' a p n w, unmarshal m a = .ok m' → (a ++ base128 (n * 8 + w) ++ p).length < 2 ^ 63 → 1 ≤ n → n < 2 ^ 29 →
    n ∉ schema.map Prod.fst → Payload w p → unmarshal m (a ++ base128 (n * 8 + w) ++ p) = .ok (keep (base128 (n * 8 + w) ++ p) m')
  illegal : ∀ m m' a rest n w, unmarshal m a = .ok m' → (a ++ base128 (n * 8 + w) ++ rest).length < 2 ^ 63 → n < 2 ^ 29 → w < 8 →
    n = 0 ∨ w = 4 ∨ w = 6 ∨ w = 7 → unmarshal m (a ++ base128 (n * 8 + w) ++ rest) = .err

/-- proto/oidc/client/v1/client.proto:83-113. -/
def clientSchema : Schema :=
  [(1, .string), (2, .enum), (3, .string), (4, .string), (5, .string), (6, .string), (7, .string), (8, .string), (9, .string),
   (10, .string), (11, .string), (12, .string), (13, .string), (14, .string), (15, .bytes), (16, .bytes), (17, .string),
   (18, .string), (19, .string), (20, .string), (21, .string), (22, .string), (23, .string), (24, .string), (25, .bool),
   (26, .bool), (27, .bool), (28, .bool)]

/-- proto/oidc/client/v1/client.proto:115-153. -/
def clientMetaSchema : Schema :=
  [(1, .string), (2, .string), (3, .string), (4, .string), (5, .string), (6, .string), (7, .map), (8, .string), (9, .string),
   (10, .map), (11, .string), (12, .string), (13, .string), (14, .map), (15, .string), (16, .map), (17, .string), (18, .bytes),
   (19, .string), (20, .string), (21, .string), (22, .string), (23, .string), (24, .string), (25, .string), (26, .string),
   (27, .string), (28, .string), (29, .bool), (30, .string), (31, .string), (32, .string), (33, .string), (34, .bool),
   (35, .bool), (36, .bool)]

/-- proto/oidc/client/v1/client.proto:155-157. -/
def softwareStatementSchema : Schema :=
  [(1, .string)]

/-- proto/oidc/client/v1/client_api.proto:40-45. -/
def authenticateRequestSchema : Schema :=
  [(1, .string), (2, .string), (3, .string), (4, .string)]

/-- proto/oidc/client/v1/client_api.proto:47-50. -/
def authenticateResponseSchema : Schema :=
  [(1, .message), (2, .message)]

/-- proto/oidc/client/v1/client_api.proto:55-57. -/
def registerRequestSchema : Schema :=
  [(1, .message)]

/-- proto/oidc/client/v1/client_api.proto:59-62. -/
def registerResponseSchema : Schema :=
  [(1, .message), (2, .message)]

/-- proto/oidc/core/v1/error.proto:25-38. -/
def errorSchema : Schema :=
  [(1, .string), (2, .string), (3, .string), (4, .string), (5, .string)]

/-- proto/oidc/discovery/v1/resource.proto:26-81. -/
def protectedResourceMetadataSchema : Schema :=
  [(1, .string), (2, .string), (3, .string), (4, .string), (5, .string), (6, .string), (7, .string), (8, .string), (9, .string),
   (10, .string), (11, .string), (12, .string)]

/-- proto/oidc/discovery/v1/server.proto:26-384. -/
def serverMetadataSchema : Schema :=
  [(1, .string), (2, .string), (3, .string), (4, .string), (5, .string), (6, .string), (7, .string), (8, .string), (9, .string),
   (10, .string), (11, .string), (12, .string), (13, .string), (14, .string), (15, .string), (16, .string), (17, .string),
   (18, .string), (19, .string), (20, .string), (21, .string), (22, .string), (23, .string), (24, .string), (25, .string),
   (26, .string), (27, .string), (28, .string), (29, .string), (30, .bool), (31, .bool), (32, .bool), (33, .bool), (34, .string),
   (35, .string), (36, .string), (37, .string), (38, .string), (39, .string), (40, .string), (41, .string), (42, .string),
   (43, .string), (44, .string), (45, .message), (46, .string), (47, .string), (48, .bool), (49, .string), (50, .string),
   (51, .string), (52, .bool), (53, .string), (54, .string), (55, .string), (56, .string)]

/-- proto/oidc/discovery/v1/server.proto:388-394. -/
def mTLSEndpointsSchema : Schema :=
  [(1, .string), (2, .string), (3, .string), (4, .string), (5, .string)]

/-- proto/oidc/flow/v1/flow.proto:28-189. -/
def authorizationRequestSchema : Schema :=
  [(1, .string), (2, .string), (3, .string), (4, .string), (5, .string), (6, .string), (7, .string), (8, .string), (9, .string),
   (10, .uint64), (11, .string), (12, .string), (13, .string), (14, .string), (15, .string), (16, .string), (17, .string),
   (18, .string), (19, .string), (20, .string), (21, .string), (22, .string), (23, .string)]

/-- proto/oidc/flow/v1/flow_api.proto:39-51. -/
def authorizeRequestSchema : Schema :=
  [(1, .string), (2, .message), (3, .string), (4, .message)]

/-- proto/oidc/flow/v1/flow_api.proto:54-98. -/
def authorizeResponseSchema : Schema :=
  [(1, .message), (2, .string), (3, .string), (4, .string), (5, .string), (6, .fixed64), (7, .string), (8, .string)]

/-- proto/oidc/flow/v1/flow_api.proto:100-112. -/
def registrationRequestSchema : Schema :=
  [(1, .string), (2, .message), (3, .message), (4, .message)]

/-- proto/oidc/flow/v1/flow_api.proto:114-135. -/
def registrationResponseSchema : Schema :=
  [(1, .message), (2, .string), (3, .fixed64), (4, .string)]

/-- proto/oidc/flow/v1/flow_api.proto:137-202. -/
def tokenRequestSchema : Schema :=
  [(1, .string), (2, .message), (3, .string), (4, .string), (5, .message), (6, .string), (7, .string), (10, .message),
   (11, .message), (12, .message), (13, .message), (14, .message)]

/-- proto/oidc/flow/v1/flow_api.proto:204-220. -/
def tokenResponseSchema : Schema :=
  [(1, .message), (2, .message), (3, .message), (4, .message), (5, .string), (6, .string), (7, .string)]

/-- proto/oidc/flow/v1/flow_api.proto:223-238. -/
def deviceAuthorizationRequestSchema : Schema :=
  [(1, .string), (2, .string), (3, .string), (4, .string)]

/-- proto/oidc/flow/v1/flow_api.proto:241-264. -/
def deviceAuthorizationResponseSchema : Schema :=
  [(1, .message), (2, .string), (3, .string), (4, .string), (5, .string), (6, .fixed64), (7, .fixed64), (8, .string)]

/-- proto/oidc/flow/v1/flow_api.proto:266-273. -/
def deviceCodeValidationRequestSchema : Schema :=
  [(1, .string), (2, .string), (3, .string)]

/-- proto/oidc/flow/v1/flow_api.proto:275-277. -/
def deviceCodeValidationResponseSchema : Schema :=
  [(1, .message)]

/-- proto/oidc/flow/v1/token_grant.proto:26-33. -/
def grantAuthorizationCodeSchema : Schema :=
  [(1, .string), (2, .string), (3, .string), (4, .string)]

/-- proto/oidc/flow/v1/token_grant.proto:35-37. -/
def grantRefreshTokenSchema : Schema :=
  [(1, .string)]

/-- proto/oidc/flow/v1/token_grant.proto:40-49. -/
def grantDeviceCodeSchema : Schema :=
  [(1, .string), (2, .string)]

/-- proto/oidc/flow/v1/token_grant.proto:51-51. -/
def grantClientCredentialsSchema : Schema :=
  []

/-- proto/oidc/flow/v1/token_grant.proto:54-85. -/
def grantTokenExchangeSchema : Schema :=
  [(1, .string), (2, .string), (3, .string), (4, .string), (5, .string)]

/-- proto/oidc/resource/v1/resource.proto:26-30. -/
def resourceSchema : Schema :=
  [(1, .string), (2, .string), (3, .string)]

/-- proto/oidc/session/v1/session.proto:28-33. -/
def authorizationCodeSessionSchema : Schema :=
  [(1, .message), (2, .string), (3, .string), (4, .message)]

/-- proto/oidc/session/v1/session.proto:43-54. -/
def deviceCodeSessionSchema : Schema :=
  [(1, .message), (2, .string), (3, .fixed64), (4, .message), (5, .enum), (6, .string), (7, .string), (8, .string), (9, .string),
   (10, .string)]

/-- proto/oidc/token/v1/introspection_api.proto:37-62. -/
def introspectRequestSchema : Schema :=
  [(1, .string), (2, .message), (3, .string), (4, .string)]

/-- proto/oidc/token/v1/introspection_api.proto:65-69. -/
def introspectResponseSchema : Schema :=
  [(1, .message), (2, .message)]

/-- proto/oidc/token/v1/revocation_api.proto:36-56. -/
def revokeRequestSchema : Schema :=
  [(1, .string), (2, .message), (3, .string), (4, .string)]

/-- proto/oidc/token/v1/revocation_api.proto:58-60. -/
def revokeResponseSchema : Schema :=
  [(1, .message)]

/-- proto/oidc/token/v1/token.proto:41-68. -/
def tokenMetaSchema : Schema :=
  [(1, .string), (2, .string), (3, .fixed64), (4, .fixed64), (5, .fixed64), (6, .string), (7, .string), (8, .string),
   (9, .string), (10, .fixed64)]

/-- proto/oidc/token/v1/token.proto:70-79. -/
def actorSchema : Schema :=
  [(1, .string), (2, .string), (3, .string), (4, .message)]

/-- proto/oidc/token/v1/token.proto:81-102. -/
def tokenSchema : Schema :=
  [(1, .string), (2, .enum), (3, .string), (4, .message), (5, .enum), (6, .string), (7, .string), (8, .message), (9, .message),
   (10, .message)]

/-- proto/oidc/token/v1/token.proto:104-106. -/
def tokenConfirmationSchema : Schema :=
  [(1, .string)]

/-- proto/oidc/token/v1/token.proto:108-114. -/
def oAuthTokenResponseSchema : Schema :=
  [(1, .string), (2, .string), (3, .fixed64), (4, .string), (5, .string)]

end Verif.Spec.Proto
