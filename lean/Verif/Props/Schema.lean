import Verif.Proofs.Schema
import Verif.Props.WireMerge

/-!
Every decoder of the binary encoding knows exactly the fields that its `.proto` file declares (C112).
-/
namespace Verif.Props
open Verif.Spec Verif.Spec.Proto Verif.Wire Verif.Pb
open Verif.Jose (Out)

theorem C112_authenticateRequest : Respects authenticateRequestSchema AuthenticateRequest.unmarshal (fun u m => { m with unknown := m.unknown ++ u }) :=
  respects_of C108_authenticateRequest (by decide) (by decide) (fun _ => AuthenticateRequest.fields) (fun _ _ => rfl) fun _ =>
    fits_string <| fits_string <| fits_string <| fits_string .nil

theorem C112_error : Respects errorSchema Error.unmarshal (fun u m => { m with unknown := m.unknown ++ u }) :=
  respects_of C108_error (by decide) (by decide) (fun _ => Error.fields) (fun _ _ => rfl) fun _ =>
    fits_string <| fits_string <| fits_string <| fits_string <| fits_string .nil

theorem C112_client : Respects clientSchema Client.unmarshal (fun u m => { m with unknown := m.unknown ++ u }) :=
  respects_of C108_client (by decide) (by decide) (fun _ => Client.fields) (fun _ _ => rfl) fun _ =>
    fits_string <| fits_enum <| fits_string <| fits_string <| fits_string <| fits_string <| fits_string <| fits_string <|
    fits_string <| fits_string <| fits_string <| fits_string <| fits_string <| fits_string <| fits_bytes <| fits_bytes <|
    fits_string <| fits_string <| fits_string <| fits_string <| fits_string <| fits_string <| fits_string <| fits_string <|
    fits_bool <| fits_bool <| fits_bool <| fits_bool .nil

theorem C112_authenticateResponse : Respects authenticateResponseSchema AuthenticateResponse.unmarshal (fun u m => { m with unknown := m.unknown ++ u }) :=
  respects_of C108_authenticateResponse (by decide) (by decide) (fun _ => AuthenticateResponse.fields) (fun _ _ => rfl) fun _ =>
    fits_message <| fits_message .nil

theorem C112_registerResponse : Respects registerResponseSchema RegisterResponse.unmarshal (fun u m => { m with unknown := m.unknown ++ u }) :=
  respects_of C108_registerResponse (by decide) (by decide) (fun _ => RegisterResponse.fields) (fun _ _ => rfl) fun _ =>
    fits_message <| fits_message .nil

theorem C112_softwareStatement : Respects softwareStatementSchema SoftwareStatement.unmarshal (fun u m => { m with unknown := m.unknown ++ u }) :=
  respects_of C108_softwareStatement (by decide) (by decide) (fun _ => SoftwareStatement.fields) (fun _ _ => rfl) fun _ =>
    fits_string .nil

theorem C112_protectedResourceMetadata : Respects protectedResourceMetadataSchema ProtectedResourceMetadata.unmarshal (fun u m => { m with unknown := m.unknown ++ u }) :=
  respects_of C108_protectedResourceMetadata (by decide) (by decide) (fun _ => ProtectedResourceMetadata.fields) (fun _ _ => rfl) fun _ =>
    fits_string <| fits_string <| fits_string <| fits_string <| fits_string <| fits_string <| fits_string <| fits_string <|
    fits_string <| fits_string <| fits_string <| fits_string .nil

theorem C112_mTLSEndpoints : Respects mTLSEndpointsSchema MTLSEndpoints.unmarshal (fun u m => { m with unknown := m.unknown ++ u }) :=
  respects_of C108_mTLSEndpoints (by decide) (by decide) (fun _ => MTLSEndpoints.fields) (fun _ _ => rfl) fun _ =>
    fits_string <| fits_string <| fits_string <| fits_string <| fits_string .nil

theorem C112_serverMetadata : Respects serverMetadataSchema ServerMetadata.unmarshal (fun u m => { m with unknown := m.unknown ++ u }) :=
  respects_of C108_serverMetadata (by decide) (by decide) (fun _ => ServerMetadata.fields) (fun _ _ => rfl) fun _ =>
    fits_string <| fits_string <| fits_string <| fits_string <| fits_string <| fits_string <| fits_string <| fits_string <|
    fits_string <| fits_string <| fits_string <| fits_string <| fits_string <| fits_string <| fits_string <| fits_string <|
    fits_string <| fits_string <| fits_string <| fits_string <| fits_string <| fits_string <| fits_string <| fits_string <|
    fits_string <| fits_string <| fits_string <| fits_string <| fits_string <| fits_bool <| fits_bool <| fits_bool <| fits_bool
    <| fits_string <| fits_string <| fits_string <| fits_string <| fits_string <| fits_string <| fits_string <| fits_string <|
    fits_string <| fits_string <| fits_string <| fits_message <| fits_string <| fits_string <| fits_bool <| fits_string <|
    fits_string <| fits_string <| fits_bool <| fits_string <| fits_string <| fits_string <| fits_string .nil

theorem C112_authorizationRequest : Respects authorizationRequestSchema AuthorizationRequest.unmarshal (fun u m => { m with unknown := m.unknown ++ u }) :=
  respects_of C108_authorizationRequest (by decide) (by decide) (fun _ => AuthorizationRequest.fields) (fun _ _ => rfl) fun _ =>
    fits_string <| fits_string <| fits_string <| fits_string <| fits_string <| fits_string <| fits_string <| fits_string <|
    fits_string <| fits_uint64 <| fits_string <| fits_string <| fits_string <| fits_string <| fits_string <| fits_string <|
    fits_string <| fits_string <| fits_string <| fits_string <| fits_string <| fits_string <| fits_string .nil

theorem C112_authorizeRequest : Respects authorizeRequestSchema AuthorizeRequest.unmarshal (fun u m => { m with unknown := m.unknown ++ u }) :=
  respects_of C108_authorizeRequest (by decide) (by decide) (fun _ => AuthorizeRequest.fields) (fun _ _ => rfl) fun _ =>
    fits_string <| fits_message <| fits_string <| fits_message .nil

theorem C112_authorizeResponse : Respects authorizeResponseSchema AuthorizeResponse.unmarshal (fun u m => { m with unknown := m.unknown ++ u }) :=
  respects_of C108_authorizeResponse (by decide) (by decide) (fun _ => AuthorizeResponse.fields) (fun _ _ => rfl) fun _ =>
    fits_message <| fits_string <| fits_string <| fits_string <| fits_string <| fits_fixed64 <| fits_string <| fits_string .nil

theorem C112_tokenConfirmation : Respects tokenConfirmationSchema TokenConfirmation.unmarshal (fun u m => { m with unknown := m.unknown ++ u }) :=
  respects_of C108_tokenConfirmation (by decide) (by decide) (fun _ => TokenConfirmation.fields) (fun _ _ => rfl) fun _ =>
    fits_string .nil

theorem C112_registrationRequest : Respects registrationRequestSchema RegistrationRequest.unmarshal (fun u m => { m with unknown := m.unknown ++ u }) :=
  respects_of C108_registrationRequest (by decide) (by decide) (fun _ => RegistrationRequest.fields) (fun _ _ => rfl) fun _ =>
    fits_string <| fits_message <| fits_message <| fits_message .nil

theorem C112_registrationResponse : Respects registrationResponseSchema RegistrationResponse.unmarshal (fun u m => { m with unknown := m.unknown ++ u }) :=
  respects_of C108_registrationResponse (by decide) (by decide) (fun _ => RegistrationResponse.fields) (fun _ _ => rfl) fun _ =>
    fits_message <| fits_string <| fits_fixed64 <| fits_string .nil

theorem C112_tokenMeta : Respects tokenMetaSchema TokenMeta.unmarshal (fun u m => { m with unknown := m.unknown ++ u }) :=
  respects_of C108_tokenMeta (by decide) (by decide) (fun _ => TokenMeta.fields) (fun _ _ => rfl) fun _ =>
    fits_string <| fits_string <| fits_fixed64 <| fits_fixed64 <| fits_fixed64 <| fits_string <| fits_string <| fits_string <|
    fits_string <| fits_fixed64 .nil

theorem C112_actor : Respects actorSchema Actor.unmarshal (fun u m => { m with unknown := m.unknown ++ u }) :=
  respects_of C108_actor (by decide) (by decide) (fun d => Actor.fields (Actor.decode d.length)) (fun _ _ => rfl) fun _ =>
    fits_string <| fits_string <| fits_string <| fits_message .nil

theorem C112_token : Respects tokenSchema Token.unmarshal (fun u m => { m with unknown := m.unknown ++ u }) :=
  respects_of C108_token (by decide) (by decide) (fun _ => Token.fields) (fun _ _ => rfl) fun _ =>
    fits_string <| fits_enum <| fits_string <| fits_message <| fits_enum <| fits_string <| fits_string <| fits_message <|
    fits_message <| fits_message .nil

theorem C112_tokenResponse : Respects tokenResponseSchema TokenResponse.unmarshal (fun u m => { m with unknown := m.unknown ++ u }) :=
  respects_of C108_tokenResponse (by decide) (by decide) (fun _ => TokenResponse.fields) (fun _ _ => rfl) fun _ =>
    fits_message <| fits_message <| fits_message <| fits_message <| fits_string <| fits_string <| fits_string .nil

theorem C112_deviceAuthorizationRequest : Respects deviceAuthorizationRequestSchema DeviceAuthorizationRequest.unmarshal (fun u m => { m with unknown := m.unknown ++ u }) :=
  respects_of C108_deviceAuthorizationRequest (by decide) (by decide) (fun _ => DeviceAuthorizationRequest.fields) (fun _ _ => rfl) fun _ =>
    fits_string <| fits_string <| fits_string <| fits_string .nil

theorem C112_deviceAuthorizationResponse : Respects deviceAuthorizationResponseSchema DeviceAuthorizationResponse.unmarshal (fun u m => { m with unknown := m.unknown ++ u }) :=
  respects_of C108_deviceAuthorizationResponse (by decide) (by decide) (fun _ => DeviceAuthorizationResponse.fields) (fun _ _ => rfl) fun _ =>
    fits_message <| fits_string <| fits_string <| fits_string <| fits_string <| fits_fixed64 <| fits_fixed64 <| fits_string .nil

theorem C112_deviceCodeValidationRequest : Respects deviceCodeValidationRequestSchema DeviceCodeValidationRequest.unmarshal (fun u m => { m with unknown := m.unknown ++ u }) :=
  respects_of C108_deviceCodeValidationRequest (by decide) (by decide) (fun _ => DeviceCodeValidationRequest.fields) (fun _ _ => rfl) fun _ =>
    fits_string <| fits_string <| fits_string .nil

theorem C112_deviceCodeValidationResponse : Respects deviceCodeValidationResponseSchema DeviceCodeValidationResponse.unmarshal (fun u m => { m with unknown := m.unknown ++ u }) :=
  respects_of C108_deviceCodeValidationResponse (by decide) (by decide) (fun _ => DeviceCodeValidationResponse.fields) (fun _ _ => rfl) fun _ =>
    fits_message .nil

theorem C112_grantAuthorizationCode : Respects grantAuthorizationCodeSchema GrantAuthorizationCode.unmarshal (fun u m => { m with unknown := m.unknown ++ u }) :=
  respects_of C108_grantAuthorizationCode (by decide) (by decide) (fun _ => GrantAuthorizationCode.fields) (fun _ _ => rfl) fun _ =>
    fits_string <| fits_string <| fits_string <| fits_string .nil

theorem C112_grantRefreshToken : Respects grantRefreshTokenSchema GrantRefreshToken.unmarshal (fun u m => { m with unknown := m.unknown ++ u }) :=
  respects_of C108_grantRefreshToken (by decide) (by decide) (fun _ => GrantRefreshToken.fields) (fun _ _ => rfl) fun _ =>
    fits_string .nil

theorem C112_grantDeviceCode : Respects grantDeviceCodeSchema GrantDeviceCode.unmarshal (fun u m => { m with unknown := m.unknown ++ u }) :=
  respects_of C108_grantDeviceCode (by decide) (by decide) (fun _ => GrantDeviceCode.fields) (fun _ _ => rfl) fun _ =>
    fits_string <| fits_string .nil

theorem C112_grantClientCredentials : Respects grantClientCredentialsSchema GrantClientCredentials.unmarshal (fun u m => { m with unknown := m.unknown ++ u }) :=
  respects_of C108_grantClientCredentials (by decide) (by decide) (fun _ => GrantClientCredentials.fields) (fun _ _ => rfl) fun _ =>
    .nil

theorem C112_grantTokenExchange : Respects grantTokenExchangeSchema GrantTokenExchange.unmarshal (fun u m => { m with unknown := m.unknown ++ u }) :=
  respects_of C108_grantTokenExchange (by decide) (by decide) (fun _ => GrantTokenExchange.fields) (fun _ _ => rfl) fun _ =>
    fits_string <| fits_string <| fits_string <| fits_string <| fits_string .nil

theorem C112_resource : Respects resourceSchema Resource.unmarshal (fun u m => { m with unknown := m.unknown ++ u }) :=
  respects_of C108_resource (by decide) (by decide) (fun _ => Resource.fields) (fun _ _ => rfl) fun _ =>
    fits_string <| fits_string <| fits_string .nil

theorem C112_authorizationCodeSession : Respects authorizationCodeSessionSchema AuthorizationCodeSession.unmarshal (fun u m => { m with unknown := m.unknown ++ u }) :=
  respects_of C108_authorizationCodeSession (by decide) (by decide) (fun _ => AuthorizationCodeSession.fields) (fun _ _ => rfl) fun _ =>
    fits_message <| fits_string <| fits_string <| fits_message .nil

theorem C112_deviceCodeSession : Respects deviceCodeSessionSchema DeviceCodeSession.unmarshal (fun u m => { m with unknown := m.unknown ++ u }) :=
  respects_of C108_deviceCodeSession (by decide) (by decide) (fun _ => DeviceCodeSession.fields) (fun _ _ => rfl) fun _ =>
    fits_message <| fits_string <| fits_fixed64 <| fits_message <| fits_enum <| fits_string <| fits_string <| fits_string <|
    fits_string <| fits_string .nil

theorem C112_introspectRequest : Respects introspectRequestSchema IntrospectRequest.unmarshal (fun u m => { m with unknown := m.unknown ++ u }) :=
  respects_of C108_introspectRequest (by decide) (by decide) (fun _ => IntrospectRequest.fields) (fun _ _ => rfl) fun _ =>
    fits_string <| fits_message <| fits_string <| fits_string .nil

theorem C112_introspectResponse : Respects introspectResponseSchema IntrospectResponse.unmarshal (fun u m => { m with unknown := m.unknown ++ u }) :=
  respects_of C108_introspectResponse (by decide) (by decide) (fun _ => IntrospectResponse.fields) (fun _ _ => rfl) fun _ =>
    fits_message <| fits_message .nil

theorem C112_revokeRequest : Respects revokeRequestSchema RevokeRequest.unmarshal (fun u m => { m with unknown := m.unknown ++ u }) :=
  respects_of C108_revokeRequest (by decide) (by decide) (fun _ => RevokeRequest.fields) (fun _ _ => rfl) fun _ =>
    fits_string <| fits_message <| fits_string <| fits_string .nil

theorem C112_revokeResponse : Respects revokeResponseSchema RevokeResponse.unmarshal (fun u m => { m with unknown := m.unknown ++ u }) :=
  respects_of C108_revokeResponse (by decide) (by decide) (fun _ => RevokeResponse.fields) (fun _ _ => rfl) fun _ =>
    fits_message .nil

theorem C112_oAuthTokenResponse : Respects oAuthTokenResponseSchema OAuthTokenResponse.unmarshal (fun u m => { m with unknown := m.unknown ++ u }) :=
  respects_of C108_oAuthTokenResponse (by decide) (by decide) (fun _ => OAuthTokenResponse.fields) (fun _ _ => rfl) fun _ =>
    fits_string <| fits_string <| fits_fixed64 <| fits_string <| fits_string .nil

theorem C112_tokenRequest : Respects tokenRequestSchema TokenRequest.unmarshal (fun u m => { m with unknown := m.unknown ++ u }) :=
  respects_of C108_tokenRequest (by decide) (by decide) (fun _ => TokenRequest.fields) (fun _ _ => rfl) fun _ =>
    fits_string <| fits_message <| fits_string <| fits_string <| fits_message <| fits_string <| fits_string <| fits_message <|
    fits_message <| fits_message <| fits_message <| fits_message .nil

theorem C112_clientMeta : Respects clientMetaSchema ClientMeta.unmarshal (fun u m => { m with unknown := m.unknown ++ u }) :=
  respects_of C108_clientMeta (by decide) (by decide) (fun _ => ClientMeta.fields) (fun _ _ => rfl) fun _ =>
    fits_string <| fits_string <| fits_string <| fits_string <| fits_string <| fits_string <| fits_map <| fits_string <|
    fits_string <| fits_map <| fits_string <| fits_string <| fits_string <| fits_map <| fits_string <| fits_map <| fits_string <|
    fits_bytes <| fits_string <| fits_string <| fits_string <| fits_string <| fits_string <| fits_string <| fits_string <|
    fits_string <| fits_string <| fits_string <| fits_bool <| fits_string <| fits_string <| fits_string <| fits_string <|
    fits_bool <| fits_bool <| fits_bool .nil

theorem C112_registerRequest : Respects registerRequestSchema RegisterRequest.unmarshal (fun u m => { m with unknown := m.unknown ++ u }) :=
  respects_of C108_registerRequest (by decide) (by decide) (fun _ => RegisterRequest.fields) (fun _ _ => rfl) fun _ =>
    fits_message .nil

/-- The first number that is none (protobuf numbers are below 2^29) but is taken for 1. -/
theorem base128_wrapped : base128 ((2 ^ 32 + 1) * 8 + 2) = [138, 128, 128, 128, 128, 1] := by
  repeat (rw [base128]; simp only [Nat.reduceMul, Nat.reduceAdd, Nat.reducePow, Nat.reduceDiv, Nat.reduceMod, Nat.reduceLT, if_true, if_false])
  rfl

theorem base128_far : base128 (2 ^ 29 * 8 + 2) = [130, 128, 128, 128, 16] := by
  repeat (rw [base128]; simp only [Nat.reduceMul, Nat.reduceAdd, Nat.reducePow, Nat.reduceDiv, Nat.reduceMod, Nat.reduceLT, if_true, if_false])
  rfl

theorem tokenFits : FieldsFit tokenSchema Token.fields :=
    fits_string <| fits_enum <| fits_string <| fits_message <| fits_enum <| fits_string <| fits_string <| fits_message <|
    fits_message <| fits_message .nil

/-- **C112_number_violated.** Numbers that no field can have are not refused: their lower 32 bits are taken, so a record
of number 2^32 + 1 sets the issuer of a token, and one of number 2^29 is kept. -/
theorem C112_number_violated :
    Token.unmarshal {} (base128 ((2 ^ 32 + 1) * 8 + 2) ++ [1, 65]) = .ok { issuer := g!"A" } ∧
    (∀ p, Payload 2 p → p.length < 2 ^ 62 → Token.unmarshal {} (base128 (2 ^ 29 * 8 + 2) ++ p) = .ok { unknown := base128 (2 ^ 29 * 8 + 2) ++ p }) := by
  constructor
  · rw [base128_wrapped]; rfl
  · intro p hp hl
    have hb : (base128 (2 ^ 29 * 8 + 2)).length ≤ 5 := by rw [base128_far]; decide
    exact kept (schema := tokenSchema) (fields := Token.fields) tokenFits (by decide) (by decide) (by decide) hp
      (by rw [List.length_append]; omega) {}

/-- A known number with another type (behind a subject), and with the right one; a number that is not known; a type that
does not exist. -/
example : base128 (1 * 8 + 0) = [8] ∧ base128 (1 * 8 + 2) = [10] ∧ base128 (200 * 8 + 5) = [197, 12] ∧
    TokenMeta.unmarshal {} [18, 1, 66] = .ok { subject := g!"B" } ∧
    TokenMeta.unmarshal {} ([18, 1, 66] ++ [8] ++ [1]) = .err ∧
    TokenMeta.unmarshal {} ([18, 1, 66] ++ [10] ++ [1, 65]) = .ok { subject := g!"B", issuer := g!"A" } ∧
    TokenMeta.unmarshal {} ([18, 1, 66] ++ [197, 12] ++ [1, 2, 3, 4]) = .ok { subject := g!"B", unknown := [197, 12, 1, 2, 3, 4] } ∧
    TokenMeta.unmarshal {} ([18, 1, 66] ++ [14] ++ [1]) = .err ∧ Payload 5 [1, 2, 3, 4] := by
  refine ⟨by simp [base128], by simp [base128], by simp [base128], rfl, rfl, rfl, rfl, rfl, .inr (.inr (.inr ⟨rfl, rfl⟩))⟩

end Verif.Props
