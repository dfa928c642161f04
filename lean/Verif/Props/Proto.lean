import Verif.Proofs.Proto

/-! The binary encoding is the one that the `.proto` files define (C103). -/
namespace Verif.Props
open Verif.Pb Verif.Wire

/-- The encoder writes, for every message, without a crash, what the definition says: every
field that is set with the number and type of the definition, in ascending order, fields
without presence only if they differ from the default, and then the unknown fields. -/
def Conforms {M : Type} (marshal : M → Option Str) (defined : M → Str) : Prop := ∀ m, marshal m = some (defined m)

theorem C103_authenticateRequest : Conforms AuthenticateRequest.marshal Spec.Proto.authenticateRequest := fun m => marshal_eq (Spec.Proto.enc_authenticateRequest m)

theorem C103_error : Conforms Error.marshal Spec.Proto.error := fun m => marshal_eq (Spec.Proto.enc_error m)

theorem C103_client : Conforms Client.marshal Spec.Proto.client := fun m => marshal_eq (Spec.Proto.enc_client m)

theorem C103_authenticateResponse : Conforms AuthenticateResponse.marshal Spec.Proto.authenticateResponse := fun m => marshal_eq (Spec.Proto.enc_authenticateResponse m)

theorem C103_registerResponse : Conforms RegisterResponse.marshal Spec.Proto.registerResponse := fun m => marshal_eq (Spec.Proto.enc_registerResponse m)

theorem C103_softwareStatement : Conforms SoftwareStatement.marshal Spec.Proto.softwareStatement := fun m => marshal_eq (Spec.Proto.enc_softwareStatement m)

theorem C103_protectedResourceMetadata : Conforms ProtectedResourceMetadata.marshal Spec.Proto.protectedResourceMetadata := fun m => marshal_eq (Spec.Proto.enc_protectedResourceMetadata m)

theorem C103_mTLSEndpoints : Conforms MTLSEndpoints.marshal Spec.Proto.mTLSEndpoints := fun m => marshal_eq (Spec.Proto.enc_mTLSEndpoints m)

theorem C103_serverMetadata : Conforms ServerMetadata.marshal Spec.Proto.serverMetadata := fun m => marshal_eq (Spec.Proto.enc_serverMetadata m)

theorem C103_authorizationRequest : Conforms AuthorizationRequest.marshal Spec.Proto.authorizationRequest := fun m => marshal_eq (Spec.Proto.enc_authorizationRequest m)

theorem C103_authorizeRequest : Conforms AuthorizeRequest.marshal Spec.Proto.authorizeRequest := fun m => marshal_eq (Spec.Proto.enc_authorizeRequest m)

theorem C103_authorizeResponse : Conforms AuthorizeResponse.marshal Spec.Proto.authorizeResponse := fun m => marshal_eq (Spec.Proto.enc_authorizeResponse m)

theorem C103_tokenConfirmation : Conforms TokenConfirmation.marshal Spec.Proto.tokenConfirmation := fun m => marshal_eq (Spec.Proto.enc_tokenConfirmation m)

theorem C103_registrationRequest : Conforms RegistrationRequest.marshal Spec.Proto.registrationRequest := fun m => marshal_eq (Spec.Proto.enc_registrationRequest m)

theorem C103_registrationResponse : Conforms RegistrationResponse.marshal Spec.Proto.registrationResponse := fun m => marshal_eq (Spec.Proto.enc_registrationResponse m)

theorem C103_tokenMeta : Conforms TokenMeta.marshal Spec.Proto.tokenMeta := fun m => marshal_eq (Spec.Proto.enc_tokenMeta m)

theorem C103_actor : Conforms Actor.marshal Spec.Proto.actor := fun m => marshal_eq (Spec.Proto.enc_actor m)

theorem C103_token : Conforms Token.marshal Spec.Proto.token := fun m => marshal_eq (Spec.Proto.enc_token m)

theorem C103_tokenResponse : Conforms TokenResponse.marshal Spec.Proto.tokenResponse := fun m => marshal_eq (Spec.Proto.enc_tokenResponse m)

theorem C103_deviceAuthorizationRequest : Conforms DeviceAuthorizationRequest.marshal Spec.Proto.deviceAuthorizationRequest := fun m => marshal_eq (Spec.Proto.enc_deviceAuthorizationRequest m)

theorem C103_deviceAuthorizationResponse : Conforms DeviceAuthorizationResponse.marshal Spec.Proto.deviceAuthorizationResponse := fun m => marshal_eq (Spec.Proto.enc_deviceAuthorizationResponse m)

theorem C103_deviceCodeValidationRequest : Conforms DeviceCodeValidationRequest.marshal Spec.Proto.deviceCodeValidationRequest := fun m => marshal_eq (Spec.Proto.enc_deviceCodeValidationRequest m)

theorem C103_deviceCodeValidationResponse : Conforms DeviceCodeValidationResponse.marshal Spec.Proto.deviceCodeValidationResponse := fun m => marshal_eq (Spec.Proto.enc_deviceCodeValidationResponse m)

theorem C103_grantAuthorizationCode : Conforms GrantAuthorizationCode.marshal Spec.Proto.grantAuthorizationCode := fun m => marshal_eq (Spec.Proto.enc_grantAuthorizationCode m)

theorem C103_grantRefreshToken : Conforms GrantRefreshToken.marshal Spec.Proto.grantRefreshToken := fun m => marshal_eq (Spec.Proto.enc_grantRefreshToken m)

theorem C103_grantDeviceCode : Conforms GrantDeviceCode.marshal Spec.Proto.grantDeviceCode := fun m => marshal_eq (Spec.Proto.enc_grantDeviceCode m)

theorem C103_grantClientCredentials : Conforms GrantClientCredentials.marshal Spec.Proto.grantClientCredentials := fun m => marshal_eq (Spec.Proto.enc_grantClientCredentials m)

theorem C103_grantTokenExchange : Conforms GrantTokenExchange.marshal Spec.Proto.grantTokenExchange := fun m => marshal_eq (Spec.Proto.enc_grantTokenExchange m)

theorem C103_resource : Conforms Resource.marshal Spec.Proto.resource := fun m => marshal_eq (Spec.Proto.enc_resource m)

theorem C103_authorizationCodeSession : Conforms AuthorizationCodeSession.marshal Spec.Proto.authorizationCodeSession := fun m => marshal_eq (Spec.Proto.enc_authorizationCodeSession m)

theorem C103_deviceCodeSession : Conforms DeviceCodeSession.marshal Spec.Proto.deviceCodeSession := fun m => marshal_eq (Spec.Proto.enc_deviceCodeSession m)

theorem C103_introspectRequest : Conforms IntrospectRequest.marshal Spec.Proto.introspectRequest := fun m => marshal_eq (Spec.Proto.enc_introspectRequest m)

theorem C103_introspectResponse : Conforms IntrospectResponse.marshal Spec.Proto.introspectResponse := fun m => marshal_eq (Spec.Proto.enc_introspectResponse m)

theorem C103_revokeRequest : Conforms RevokeRequest.marshal Spec.Proto.revokeRequest := fun m => marshal_eq (Spec.Proto.enc_revokeRequest m)

theorem C103_revokeResponse : Conforms RevokeResponse.marshal Spec.Proto.revokeResponse := fun m => marshal_eq (Spec.Proto.enc_revokeResponse m)

theorem C103_oAuthTokenResponse : Conforms OAuthTokenResponse.marshal Spec.Proto.oAuthTokenResponse := fun m => marshal_eq (Spec.Proto.enc_oAuthTokenResponse m)

theorem C103_tokenRequest : Conforms TokenRequest.marshal Spec.Proto.tokenRequest := fun m => marshal_eq (Spec.Proto.enc_tokenRequest m)

/-- An actor within an actor, written by its definition. -/
example : Actor.marshal { issuer := g!"i", act := some { subject := g!"s" } } = some [10, 1, 105, 34, 3, 18, 1, 115] := by
  rw [C103_actor]
  decide +kernel

/-- A negative number of an enumeration takes ten bytes; what is zero or empty is not written. -/
example : Token.marshal { tokenType := 4294967295, value := [], phantom := some [] } =
    some [16, 255, 255, 255, 255, 255, 255, 255, 255, 255, 1, 58, 0] := by
  rw [C103_token]
  decide +kernel

end Verif.Props
