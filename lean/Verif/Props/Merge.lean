import Verif.Proofs.Merge
import Verif.Props.WireMerge

/-!
What the decoders do when they read into a message that already has content: the result is the
content merged with what is read (C113).
-/
namespace Verif.Props
open Verif.Jose (Out)
open Verif.Wire Verif.Pb
open Verif.Spec.Proto

/-- The encoding of a message, read into another one, is merged into it: `merge` is defined field
by field in `Spec/Merge.lean`. Nothing is asked of the message that is read into. -/
def Folds {M : Type} (marshal : M → Option Str) (size : M → Nat) (unmarshal : M → Str → Out M) (Ok : M → Prop)
    (merge : M → M → M) : Prop :=
  ∀ m x, Ok x → size x < 2 ^ 63 → ∃ e, marshal x = some e ∧ unmarshal m e = .ok (merge m x)

theorem folds_of {M : Type} {parts : M → List Part} {dec : M → Str → Out M} {Ok : M → Prop} {merge : M → M → M}
    (h : ∀ m x, Ok x → ∃ e, EncAll (parts x) e ∧ (e.length < 2 ^ 63 → dec m e = .ok (merge m x))) :
    Folds (fun m => marshal (parts m)) (fun m => sizeAll (parts m)) dec Ok merge := by
  intro m x hx hs
  obtain ⟨e, he, hd⟩ := h m x hx
  exact ⟨e, marshal_eq he, hd (by rw [← encAll_size he]; exact hs)⟩

theorem C113_authenticateRequest : Folds AuthenticateRequest.marshal (fun m => sizeAll m.parts) AuthenticateRequest.unmarshal AuthenticateRequest.Ok mergeAuthenticateRequest :=
  folds_of fun m x h => dec_of_chain (foldAuthenticateRequest m x h)

theorem C113_error : Folds Error.marshal (fun m => sizeAll m.parts) Error.unmarshal Error.Ok mergeError :=
  folds_of fun m x h => dec_of_chain (foldError m x h)

theorem C113_client : Folds Client.marshal (fun m => sizeAll m.parts) Client.unmarshal Client.Ok mergeClient :=
  folds_of fun m x h => dec_of_chain (foldClient m x h)

theorem C113_authenticateResponse : Folds AuthenticateResponse.marshal (fun m => sizeAll m.parts) AuthenticateResponse.unmarshal AuthenticateResponse.Ok mergeAuthenticateResponse :=
  folds_of fun m x h => dec_of_chain (foldAuthenticateResponse m x h)

theorem C113_registerResponse : Folds RegisterResponse.marshal (fun m => sizeAll m.parts) RegisterResponse.unmarshal RegisterResponse.Ok mergeRegisterResponse :=
  folds_of fun m x h => dec_of_chain (foldRegisterResponse m x h)

theorem C113_softwareStatement : Folds SoftwareStatement.marshal (fun m => sizeAll m.parts) SoftwareStatement.unmarshal SoftwareStatement.Ok mergeSoftwareStatement :=
  folds_of fun m x h => dec_of_chain (foldSoftwareStatement m x h)

theorem C113_protectedResourceMetadata : Folds ProtectedResourceMetadata.marshal (fun m => sizeAll m.parts) ProtectedResourceMetadata.unmarshal ProtectedResourceMetadata.Ok mergeProtectedResourceMetadata :=
  folds_of fun m x h => dec_of_chain (foldProtectedResourceMetadata m x h)

theorem C113_mTLSEndpoints : Folds MTLSEndpoints.marshal (fun m => sizeAll m.parts) MTLSEndpoints.unmarshal MTLSEndpoints.Ok mergeMTLSEndpoints :=
  folds_of fun m x h => dec_of_chain (foldMTLSEndpoints m x h)

theorem C113_serverMetadata : Folds ServerMetadata.marshal (fun m => sizeAll m.parts) ServerMetadata.unmarshal ServerMetadata.Ok mergeServerMetadata :=
  folds_of fun m x h => dec_of_chain (foldServerMetadata m x h)

theorem C113_authorizationRequest : Folds AuthorizationRequest.marshal (fun m => sizeAll m.parts) AuthorizationRequest.unmarshal AuthorizationRequest.Ok mergeAuthorizationRequest :=
  folds_of fun m x h => dec_of_chain (foldAuthorizationRequest m x h)

theorem C113_authorizeRequest : Folds AuthorizeRequest.marshal (fun m => sizeAll m.parts) AuthorizeRequest.unmarshal AuthorizeRequest.Ok mergeAuthorizeRequest :=
  folds_of fun m x h => dec_of_chain (foldAuthorizeRequest m x h)

theorem C113_authorizeResponse : Folds AuthorizeResponse.marshal (fun m => sizeAll m.parts) AuthorizeResponse.unmarshal AuthorizeResponse.Ok mergeAuthorizeResponse :=
  folds_of fun m x h => dec_of_chain (foldAuthorizeResponse m x h)

theorem C113_tokenConfirmation : Folds TokenConfirmation.marshal (fun m => sizeAll m.parts) TokenConfirmation.unmarshal TokenConfirmation.Ok mergeTokenConfirmation :=
  folds_of fun m x h => dec_of_chain (foldTokenConfirmation m x h)

theorem C113_registrationRequest : Folds RegistrationRequest.marshal (fun m => sizeAll m.parts) RegistrationRequest.unmarshal RegistrationRequest.Ok mergeRegistrationRequest :=
  folds_of fun m x h => dec_of_chain (foldRegistrationRequest m x h)

theorem C113_registrationResponse : Folds RegistrationResponse.marshal (fun m => sizeAll m.parts) RegistrationResponse.unmarshal RegistrationResponse.Ok mergeRegistrationResponse :=
  folds_of fun m x h => dec_of_chain (foldRegistrationResponse m x h)

theorem C113_tokenMeta : Folds TokenMeta.marshal (fun m => sizeAll m.parts) TokenMeta.unmarshal TokenMeta.Ok mergeTokenMeta :=
  folds_of fun m x h => dec_of_chain (foldTokenMeta m x h)

theorem C113_actor : Folds Actor.marshal (fun m => sizeAll m.parts) Actor.unmarshal Actor.Ok mergeActor :=
  folds_of foldActor_dec

theorem C113_token : Folds Token.marshal (fun m => sizeAll m.parts) Token.unmarshal Token.Ok mergeToken :=
  folds_of fun m x h => dec_of_chain (foldToken m x h)

theorem C113_tokenResponse : Folds TokenResponse.marshal (fun m => sizeAll m.parts) TokenResponse.unmarshal TokenResponse.Ok mergeTokenResponse :=
  folds_of fun m x h => dec_of_chain (foldTokenResponse m x h)

theorem C113_deviceAuthorizationRequest : Folds DeviceAuthorizationRequest.marshal (fun m => sizeAll m.parts) DeviceAuthorizationRequest.unmarshal DeviceAuthorizationRequest.Ok mergeDeviceAuthorizationRequest :=
  folds_of fun m x h => dec_of_chain (foldDeviceAuthorizationRequest m x h)

theorem C113_deviceAuthorizationResponse : Folds DeviceAuthorizationResponse.marshal (fun m => sizeAll m.parts) DeviceAuthorizationResponse.unmarshal DeviceAuthorizationResponse.Ok mergeDeviceAuthorizationResponse :=
  folds_of fun m x h => dec_of_chain (foldDeviceAuthorizationResponse m x h)

theorem C113_deviceCodeValidationRequest : Folds DeviceCodeValidationRequest.marshal (fun m => sizeAll m.parts) DeviceCodeValidationRequest.unmarshal DeviceCodeValidationRequest.Ok mergeDeviceCodeValidationRequest :=
  folds_of fun m x h => dec_of_chain (foldDeviceCodeValidationRequest m x h)

theorem C113_deviceCodeValidationResponse : Folds DeviceCodeValidationResponse.marshal (fun m => sizeAll m.parts) DeviceCodeValidationResponse.unmarshal DeviceCodeValidationResponse.Ok mergeDeviceCodeValidationResponse :=
  folds_of fun m x h => dec_of_chain (foldDeviceCodeValidationResponse m x h)

theorem C113_grantAuthorizationCode : Folds GrantAuthorizationCode.marshal (fun m => sizeAll m.parts) GrantAuthorizationCode.unmarshal GrantAuthorizationCode.Ok mergeGrantAuthorizationCode :=
  folds_of fun m x h => dec_of_chain (foldGrantAuthorizationCode m x h)

theorem C113_grantRefreshToken : Folds GrantRefreshToken.marshal (fun m => sizeAll m.parts) GrantRefreshToken.unmarshal GrantRefreshToken.Ok mergeGrantRefreshToken :=
  folds_of fun m x h => dec_of_chain (foldGrantRefreshToken m x h)

theorem C113_grantDeviceCode : Folds GrantDeviceCode.marshal (fun m => sizeAll m.parts) GrantDeviceCode.unmarshal GrantDeviceCode.Ok mergeGrantDeviceCode :=
  folds_of fun m x h => dec_of_chain (foldGrantDeviceCode m x h)

theorem C113_grantClientCredentials : Folds GrantClientCredentials.marshal (fun m => sizeAll m.parts) GrantClientCredentials.unmarshal GrantClientCredentials.Ok mergeGrantClientCredentials :=
  folds_of fun m x h => dec_of_chain (foldGrantClientCredentials m x h)

theorem C113_grantTokenExchange : Folds GrantTokenExchange.marshal (fun m => sizeAll m.parts) GrantTokenExchange.unmarshal GrantTokenExchange.Ok mergeGrantTokenExchange :=
  folds_of fun m x h => dec_of_chain (foldGrantTokenExchange m x h)

theorem C113_resource : Folds Resource.marshal (fun m => sizeAll m.parts) Resource.unmarshal Resource.Ok mergeResource :=
  folds_of fun m x h => dec_of_chain (foldResource m x h)

theorem C113_authorizationCodeSession : Folds AuthorizationCodeSession.marshal (fun m => sizeAll m.parts) AuthorizationCodeSession.unmarshal AuthorizationCodeSession.Ok mergeAuthorizationCodeSession :=
  folds_of fun m x h => dec_of_chain (foldAuthorizationCodeSession m x h)

theorem C113_deviceCodeSession : Folds DeviceCodeSession.marshal (fun m => sizeAll m.parts) DeviceCodeSession.unmarshal DeviceCodeSession.Ok mergeDeviceCodeSession :=
  folds_of fun m x h => dec_of_chain (foldDeviceCodeSession m x h)

theorem C113_introspectRequest : Folds IntrospectRequest.marshal (fun m => sizeAll m.parts) IntrospectRequest.unmarshal IntrospectRequest.Ok mergeIntrospectRequest :=
  folds_of fun m x h => dec_of_chain (foldIntrospectRequest m x h)

theorem C113_introspectResponse : Folds IntrospectResponse.marshal (fun m => sizeAll m.parts) IntrospectResponse.unmarshal IntrospectResponse.Ok mergeIntrospectResponse :=
  folds_of fun m x h => dec_of_chain (foldIntrospectResponse m x h)

theorem C113_revokeRequest : Folds RevokeRequest.marshal (fun m => sizeAll m.parts) RevokeRequest.unmarshal RevokeRequest.Ok mergeRevokeRequest :=
  folds_of fun m x h => dec_of_chain (foldRevokeRequest m x h)

theorem C113_revokeResponse : Folds RevokeResponse.marshal (fun m => sizeAll m.parts) RevokeResponse.unmarshal RevokeResponse.Ok mergeRevokeResponse :=
  folds_of fun m x h => dec_of_chain (foldRevokeResponse m x h)

theorem C113_oAuthTokenResponse : Folds OAuthTokenResponse.marshal (fun m => sizeAll m.parts) OAuthTokenResponse.unmarshal OAuthTokenResponse.Ok mergeOAuthTokenResponse :=
  folds_of fun m x h => dec_of_chain (foldOAuthTokenResponse m x h)

theorem C113_tokenRequest : Folds TokenRequest.marshal (fun m => sizeAll m.parts) TokenRequest.unmarshal TokenRequest.Ok mergeTokenRequest :=
  folds_of fun m x h => dec_of_chain (foldTokenRequest m x h)

theorem C113_clientMeta : Folds ClientMeta.marshal (fun m => sizeAll m.parts) ClientMeta.unmarshal ClientMeta.Ok mergeClientMeta :=
  folds_of fun m x h => dec_of_chain (foldClientMeta m x h)

theorem C113_registerRequest : Folds RegisterRequest.marshal (fun m => sizeAll m.parts) RegisterRequest.unmarshal RegisterRequest.Ok mergeRegisterRequest :=
  folds_of fun m x h => dec_of_chain (foldRegisterRequest m x h)

/-- One encoding behind another, of any two messages, is read as the second merged into the first. -/
theorem C113_concatenated {M : Type} {marshal : M → Option Str} {size : M → Nat} {unmarshal : M → Str → Out M} {Ok : M → Prop}
    {merge : M → M → M} {new : M} (hr : Faithful marshal size (unmarshal new) Ok) (hm : Merges unmarshal)
    (hf : Folds marshal size unmarshal Ok merge) {x y : M} (hx : Ok x) (hy : Ok y) {a b : Str} (ha : marshal x = some a)
    (hb : marshal y = some b) (hsx : size x < 2 ^ 63) (hsy : size y < 2 ^ 63) (hs : (a ++ b).length < 2 ^ 63) :
    unmarshal new (a ++ b) = .ok (merge x y) := by
  obtain ⟨a', h1, _, h2⟩ := hr.roundtrip x hx hsx
  obtain ⟨b', h3, h4⟩ := hf x y hy hsy
  rw [ha] at h1
  rw [hb] at h3
  cases h1
  cases h3
  rw [hm _ _ _ _ hs h2, h4]

/-- A map that was merged has for every key the value of the second map, if that has one, and
otherwise that of the first. -/
theorem C113_map (l l' : List (Str × Str)) (k : Str) : (mergeMap l l').lookup k = (l'.lookup k).or (l.lookup k) :=
  mergeMap_lookup l l' k

/-- A client with a name, a redirection URI and two translations, and one with another name,
another redirection URI, a translation of its own and one that the first has already. -/
def Demo.mergeInto : ClientMeta :=
  { clientName := some g!"a", logoUri := some g!"/l", redirectUris := [g!"/a"], clientNameI18N := [(g!"de", g!"w"), (g!"fr", g!"x")] }
def Demo.mergeFrom : ClientMeta :=
  { clientName := some g!"b", redirectUris := [g!"/b"], clientNameI18N := [(g!"fr", g!"y"), (g!"it", g!"z")] }

/-- The second is read into the first. -/
example : ∃ e, Demo.mergeFrom.marshal = some e ∧ Demo.mergeInto.unmarshal e =
    .ok { Demo.mergeInto with
      clientName := some g!"b", redirectUris := [g!"/a", g!"/b"],
      clientNameI18N := [(g!"de", g!"w"), (g!"fr", g!"y"), (g!"it", g!"z")] } :=
  C113_clientMeta Demo.mergeInto Demo.mergeFrom ⟨.nil, by decide, by decide, by decide, by decide⟩ (by decide)

/-- A grant of the same kind is merged, one of another kind replaced. -/
example : mergeTokenRequest { grant := some (.authorizationCode { code := g!"a", codeVerifier := g!"v" }) }
      { grant := some (.authorizationCode { code := g!"b" }) } =
        { grant := some (.authorizationCode { code := g!"b", codeVerifier := g!"v" }) } ∧
    mergeTokenRequest { grant := some (.authorizationCode { code := g!"a" }) }
      { grant := some (.refreshToken { refreshToken := g!"r" }) } = { grant := some (.refreshToken { refreshToken := g!"r" }) } :=
  ⟨rfl, rfl⟩

/-- Two encodings one behind the other. -/
example {a b : Str} (ha : Error.marshal { err := g!"invalid_request" } = some a)
    (hb : Error.marshal { errorDescription := g!"no" } = some b) (hs : (a ++ b).length < 2 ^ 63) :
    Error.unmarshal {} (a ++ b) = .ok { err := g!"invalid_request", errorDescription := g!"no" } :=
  C113_concatenated C52_error C108_error C113_error (x := { err := g!"invalid_request" }) (y := { errorDescription := g!"no" })
    ⟨.nil⟩ ⟨.nil⟩ ha hb (by decide) (by decide) hs

end Verif.Props
