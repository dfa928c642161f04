import Verif.Proofs.Pb

/-! C52: the binary encoding of messages. -/
namespace Verif.Props
open Verif.Jose (Out)
open Verif.Wire Verif.Pb

/-- A binary codec keeps messages: what is written has the computed size and is read
back; what is read from any input can be written and read back, and no input crashes
the decoder. The bound on the size is that of Go's `int`; `Ok` says that the bytes kept
of unknown fields are records of unknown fields. -/
structure Faithful {M : Type} (marshal : M → Option Str) (size : M → Nat) (unmarshal : Str → Out M) (Ok : M → Prop) : Prop where
  roundtrip : ∀ m, Ok m → size m < 2 ^ 63 → ∃ e, marshal m = some e ∧ e.length = size m ∧ unmarshal e = .ok m
  decoded : ∀ d m, unmarshal d = .ok m → Ok m
  stable : ∀ d m, unmarshal d = .ok m → size m < 2 ^ 63 → ∃ e, marshal m = some e ∧ unmarshal e = .ok m
  noCrash : ∀ d, unmarshal d ≠ .panic

/-- Different messages have different encodings. -/
theorem C52_injective {M : Type} {marshal : M → Option Str} {size : M → Nat} {unmarshal : Str → Out M} {Ok : M → Prop}
    (h : Faithful marshal size unmarshal Ok) {m m' : M} (hm : Ok m) (hm' : Ok m') (hs : size m < 2 ^ 63)
    (hs' : size m' < 2 ^ 63) (he : marshal m = marshal m') : m = m' := by
  obtain ⟨e, h1, _, h2⟩ := h.roundtrip m hm hs
  obtain ⟨e', h1', _, h2'⟩ := h.roundtrip m' hm' hs'
  rw [h1, h1'] at he
  cases he
  rw [h2] at h2'
  cases h2'
  rfl

theorem faithful_of {M : Type} {parts : M → List Part} {dec : M → Str → Out M} {Ok : M → Prop} {new : M}
    (h : ∀ x, Ok x → ∃ e, EncAll (parts x) e ∧ (e.length < 2 ^ 63 → dec new e = .ok x)) (hs : SaneDec Ok dec) (h0 : Ok new) :
    Faithful (fun m => marshal (parts m)) (fun m => sizeAll (parts m)) (dec new) Ok := by
  have hr : ∀ m, Ok m → sizeAll (parts m) < 2 ^ 63 →
      ∃ e, marshal (parts m) = some e ∧ e.length = sizeAll (parts m) ∧ dec new e = .ok m := by
    intro m hm hl
    obtain ⟨e, he, hd⟩ := h m hm
    have hz := encAll_size he
    rw [hz] at hl
    exact ⟨e, marshal_eq he, hz.symm, hd hl⟩
  refine ⟨hr, fun d m hd => hs.keeps _ _ _ h0 hd, fun d m hd hl => ?_, fun d => hs.noPanic _ _⟩
  obtain ⟨e, h1, _, h2⟩ := hr m (hs.keeps _ _ _ h0 hd) hl
  exact ⟨e, h1, h2⟩

theorem C52_authenticateRequest : Faithful AuthenticateRequest.marshal (fun m => sizeAll m.parts) (AuthenticateRequest.unmarshal {}) AuthenticateRequest.Ok :=
  faithful_of AuthenticateRequest.dec AuthenticateRequest.sane AuthenticateRequest.Ok.empty

theorem C52_error : Faithful Error.marshal (fun m => sizeAll m.parts) (Error.unmarshal {}) Error.Ok :=
  faithful_of Error.dec Error.sane Error.Ok.empty

theorem C52_client : Faithful Client.marshal (fun m => sizeAll m.parts) (Client.unmarshal {}) Client.Ok :=
  faithful_of Client.dec Client.sane Client.Ok.empty

theorem C52_authenticateResponse : Faithful AuthenticateResponse.marshal (fun m => sizeAll m.parts) (AuthenticateResponse.unmarshal {}) AuthenticateResponse.Ok :=
  faithful_of AuthenticateResponse.dec AuthenticateResponse.sane AuthenticateResponse.Ok.empty

theorem C52_registerResponse : Faithful RegisterResponse.marshal (fun m => sizeAll m.parts) (RegisterResponse.unmarshal {}) RegisterResponse.Ok :=
  faithful_of RegisterResponse.dec RegisterResponse.sane RegisterResponse.Ok.empty

theorem C52_softwareStatement : Faithful SoftwareStatement.marshal (fun m => sizeAll m.parts) (SoftwareStatement.unmarshal {}) SoftwareStatement.Ok :=
  faithful_of SoftwareStatement.dec SoftwareStatement.sane SoftwareStatement.Ok.empty

theorem C52_protectedResourceMetadata : Faithful ProtectedResourceMetadata.marshal (fun m => sizeAll m.parts) (ProtectedResourceMetadata.unmarshal {}) ProtectedResourceMetadata.Ok :=
  faithful_of ProtectedResourceMetadata.dec ProtectedResourceMetadata.sane ProtectedResourceMetadata.Ok.empty

theorem C52_mTLSEndpoints : Faithful MTLSEndpoints.marshal (fun m => sizeAll m.parts) (MTLSEndpoints.unmarshal {}) MTLSEndpoints.Ok :=
  faithful_of MTLSEndpoints.dec MTLSEndpoints.sane MTLSEndpoints.Ok.empty

theorem C52_serverMetadata : Faithful ServerMetadata.marshal (fun m => sizeAll m.parts) (ServerMetadata.unmarshal {}) ServerMetadata.Ok :=
  faithful_of ServerMetadata.dec ServerMetadata.sane ServerMetadata.Ok.empty

theorem C52_authorizationRequest : Faithful AuthorizationRequest.marshal (fun m => sizeAll m.parts) (AuthorizationRequest.unmarshal {}) AuthorizationRequest.Ok :=
  faithful_of AuthorizationRequest.dec AuthorizationRequest.sane AuthorizationRequest.Ok.empty

theorem C52_authorizeRequest : Faithful AuthorizeRequest.marshal (fun m => sizeAll m.parts) (AuthorizeRequest.unmarshal {}) AuthorizeRequest.Ok :=
  faithful_of AuthorizeRequest.dec AuthorizeRequest.sane AuthorizeRequest.Ok.empty

theorem C52_authorizeResponse : Faithful AuthorizeResponse.marshal (fun m => sizeAll m.parts) (AuthorizeResponse.unmarshal {}) AuthorizeResponse.Ok :=
  faithful_of AuthorizeResponse.dec AuthorizeResponse.sane AuthorizeResponse.Ok.empty

theorem C52_tokenConfirmation : Faithful TokenConfirmation.marshal (fun m => sizeAll m.parts) (TokenConfirmation.unmarshal {}) TokenConfirmation.Ok :=
  faithful_of TokenConfirmation.dec TokenConfirmation.sane TokenConfirmation.Ok.empty

theorem C52_registrationRequest : Faithful RegistrationRequest.marshal (fun m => sizeAll m.parts) (RegistrationRequest.unmarshal {}) RegistrationRequest.Ok :=
  faithful_of RegistrationRequest.dec RegistrationRequest.sane RegistrationRequest.Ok.empty

theorem C52_registrationResponse : Faithful RegistrationResponse.marshal (fun m => sizeAll m.parts) (RegistrationResponse.unmarshal {}) RegistrationResponse.Ok :=
  faithful_of RegistrationResponse.dec RegistrationResponse.sane RegistrationResponse.Ok.empty

theorem C52_tokenMeta : Faithful TokenMeta.marshal (fun m => sizeAll m.parts) (TokenMeta.unmarshal {}) TokenMeta.Ok :=
  faithful_of TokenMeta.dec TokenMeta.sane TokenMeta.Ok.empty

theorem C52_actor : Faithful Actor.marshal (fun m => sizeAll m.parts) (Actor.unmarshal {}) Actor.Ok :=
  faithful_of Actor.dec Actor.sane Actor.Ok.empty

theorem C52_token : Faithful Token.marshal (fun m => sizeAll m.parts) (Token.unmarshal {}) Token.Ok :=
  faithful_of Token.dec Token.sane Token.Ok.empty

theorem C52_tokenResponse : Faithful TokenResponse.marshal (fun m => sizeAll m.parts) (TokenResponse.unmarshal {}) TokenResponse.Ok :=
  faithful_of TokenResponse.dec TokenResponse.sane TokenResponse.Ok.empty

theorem C52_deviceAuthorizationRequest : Faithful DeviceAuthorizationRequest.marshal (fun m => sizeAll m.parts) (DeviceAuthorizationRequest.unmarshal {}) DeviceAuthorizationRequest.Ok :=
  faithful_of DeviceAuthorizationRequest.dec DeviceAuthorizationRequest.sane DeviceAuthorizationRequest.Ok.empty

theorem C52_deviceAuthorizationResponse : Faithful DeviceAuthorizationResponse.marshal (fun m => sizeAll m.parts) (DeviceAuthorizationResponse.unmarshal {}) DeviceAuthorizationResponse.Ok :=
  faithful_of DeviceAuthorizationResponse.dec DeviceAuthorizationResponse.sane DeviceAuthorizationResponse.Ok.empty

theorem C52_deviceCodeValidationRequest : Faithful DeviceCodeValidationRequest.marshal (fun m => sizeAll m.parts) (DeviceCodeValidationRequest.unmarshal {}) DeviceCodeValidationRequest.Ok :=
  faithful_of DeviceCodeValidationRequest.dec DeviceCodeValidationRequest.sane DeviceCodeValidationRequest.Ok.empty

theorem C52_deviceCodeValidationResponse : Faithful DeviceCodeValidationResponse.marshal (fun m => sizeAll m.parts) (DeviceCodeValidationResponse.unmarshal {}) DeviceCodeValidationResponse.Ok :=
  faithful_of DeviceCodeValidationResponse.dec DeviceCodeValidationResponse.sane DeviceCodeValidationResponse.Ok.empty

theorem C52_grantAuthorizationCode : Faithful GrantAuthorizationCode.marshal (fun m => sizeAll m.parts) (GrantAuthorizationCode.unmarshal {}) GrantAuthorizationCode.Ok :=
  faithful_of GrantAuthorizationCode.dec GrantAuthorizationCode.sane GrantAuthorizationCode.Ok.empty

theorem C52_grantRefreshToken : Faithful GrantRefreshToken.marshal (fun m => sizeAll m.parts) (GrantRefreshToken.unmarshal {}) GrantRefreshToken.Ok :=
  faithful_of GrantRefreshToken.dec GrantRefreshToken.sane GrantRefreshToken.Ok.empty

theorem C52_grantDeviceCode : Faithful GrantDeviceCode.marshal (fun m => sizeAll m.parts) (GrantDeviceCode.unmarshal {}) GrantDeviceCode.Ok :=
  faithful_of GrantDeviceCode.dec GrantDeviceCode.sane GrantDeviceCode.Ok.empty

theorem C52_grantClientCredentials : Faithful GrantClientCredentials.marshal (fun m => sizeAll m.parts) (GrantClientCredentials.unmarshal {}) GrantClientCredentials.Ok :=
  faithful_of GrantClientCredentials.dec GrantClientCredentials.sane GrantClientCredentials.Ok.empty

theorem C52_grantTokenExchange : Faithful GrantTokenExchange.marshal (fun m => sizeAll m.parts) (GrantTokenExchange.unmarshal {}) GrantTokenExchange.Ok :=
  faithful_of GrantTokenExchange.dec GrantTokenExchange.sane GrantTokenExchange.Ok.empty

theorem C52_resource : Faithful Resource.marshal (fun m => sizeAll m.parts) (Resource.unmarshal {}) Resource.Ok :=
  faithful_of Resource.dec Resource.sane Resource.Ok.empty

theorem C52_authorizationCodeSession : Faithful AuthorizationCodeSession.marshal (fun m => sizeAll m.parts) (AuthorizationCodeSession.unmarshal {}) AuthorizationCodeSession.Ok :=
  faithful_of AuthorizationCodeSession.dec AuthorizationCodeSession.sane AuthorizationCodeSession.Ok.empty

theorem C52_deviceCodeSession : Faithful DeviceCodeSession.marshal (fun m => sizeAll m.parts) (DeviceCodeSession.unmarshal {}) DeviceCodeSession.Ok :=
  faithful_of DeviceCodeSession.dec DeviceCodeSession.sane DeviceCodeSession.Ok.empty

theorem C52_introspectRequest : Faithful IntrospectRequest.marshal (fun m => sizeAll m.parts) (IntrospectRequest.unmarshal {}) IntrospectRequest.Ok :=
  faithful_of IntrospectRequest.dec IntrospectRequest.sane IntrospectRequest.Ok.empty

theorem C52_introspectResponse : Faithful IntrospectResponse.marshal (fun m => sizeAll m.parts) (IntrospectResponse.unmarshal {}) IntrospectResponse.Ok :=
  faithful_of IntrospectResponse.dec IntrospectResponse.sane IntrospectResponse.Ok.empty

theorem C52_revokeRequest : Faithful RevokeRequest.marshal (fun m => sizeAll m.parts) (RevokeRequest.unmarshal {}) RevokeRequest.Ok :=
  faithful_of RevokeRequest.dec RevokeRequest.sane RevokeRequest.Ok.empty

theorem C52_revokeResponse : Faithful RevokeResponse.marshal (fun m => sizeAll m.parts) (RevokeResponse.unmarshal {}) RevokeResponse.Ok :=
  faithful_of RevokeResponse.dec RevokeResponse.sane RevokeResponse.Ok.empty

theorem C52_oAuthTokenResponse : Faithful OAuthTokenResponse.marshal (fun m => sizeAll m.parts) (OAuthTokenResponse.unmarshal {}) OAuthTokenResponse.Ok :=
  faithful_of OAuthTokenResponse.dec OAuthTokenResponse.sane OAuthTokenResponse.Ok.empty

theorem C52_tokenRequest : Faithful TokenRequest.marshal (fun m => sizeAll m.parts) (TokenRequest.unmarshal {}) TokenRequest.Ok :=
  faithful_of TokenRequest.dec TokenRequest.sane TokenRequest.Ok.empty

/-- The depth that the model's decoder of actors takes is no restriction: more depth
than the length of the input changes nothing. -/
theorem C52_actor_depth (n : Nat) (m : Actor) (d : Str) (hn : d.length < n) : Actor.decode n m d = Actor.unmarshal m d := by
  have key : ∀ (k : Nat) (d : Str), d.length < k → ∀ n n' m, d.length < n → d.length < n' →
      Actor.decode n m d = Actor.decode n' m d := by
    intro k
    induction k with
    | zero => intro d hd; omega
    | succ k ih =>
      intro d hd n n' m hn hn'
      obtain ⟨n, rfl⟩ : ∃ j, n = j + 1 := ⟨n - 1, by omega⟩
      obtain ⟨n', rfl⟩ : ∃ j, n' = j + 1 := ⟨n' - 1, by omega⟩
      refine unmarshal_congr ?_ m
      intro num
      have hc : ∀ get set, onMsg (M := Actor) get set (Actor.decode n) d = onMsg get set (Actor.decode n') d := by
        intro get set
        refine onMsg_congr fun m s hs => ?_
        exact ih s (by omega) n n' m (by omega) (by omega)
      simp only [Actor.fields, List.lookup_cons, List.lookup_nil]
      cases num == 1 <;> cases num == 2 <;> cases num == 3 <;> cases num == 4 <;> simp [hc]
  exact key (d.length + 1) d (by omega) n (d.length + 1) m hn (by omega)

/-! Examples: the hypotheses are met by messages that use what the codec can do. -/

/-- A token with nested actors, an enumeration beyond its declared values and a record
of an unknown field (number 15, wire type 2, two bytes). -/
def Demo.wireToken : Pb.Token :=
  { issuer := g!"https://as.example", tokenType := 4294967295, tokenId := g!"id", value := g!"v", phantom := some [],
    metadata := some { issuer := g!"i", expiresAt := 5 }, confirmation := some {},
    actor := [{ subject := g!"a", act := some { subject := g!"b", act := some {} } }, {}], unknown := [122, 2, 1, 2] }

theorem Demo.wireToken_ok : Demo.wireToken.Ok := by
  refine ⟨fun x h => ?_, fun x h => ?_, fun x h => ?_, ok_nil, ?_⟩
  · cases h; exact ⟨.nil⟩
  · cases h; exact ⟨.nil⟩
  · simp only [Demo.wireToken, List.mem_cons, List.not_mem_nil, or_false] at h
    rcases h with rfl | rfl
    · refine ⟨fun x h => ?_, .nil⟩
      cases h
      refine ⟨fun x h => ?_, .nil⟩
      cases h
      exact .empty
    · exact .empty
  · exact .snoc (u := []) .nil ⟨122, 1, rfl, by decide, by decide, by decide, by decide, rfl⟩

example : ∃ e, Demo.wireToken.marshal = some e ∧ Token.unmarshal {} e = .ok Demo.wireToken := by
  obtain ⟨e, h, _, h'⟩ := C52_token.roundtrip Demo.wireToken Demo.wireToken_ok (by decide)
  exact ⟨e, h, h'⟩

/-- An input that is not in the form the encoder writes: fields out of order, one twice,
a varint with superfluous bytes. -/
example : ∃ m, GrantDeviceCode.unmarshal {} [18, 0x81, 0x00, 65, 10, 1, 66, 10, 1, 67] = .ok m ∧ m.Ok :=
  ⟨_, rfl, C52_grantDeviceCode.decoded [18, 0x81, 0x00, 65, 10, 1, 66, 10, 1, 67] _ rfl⟩

/-- Truncated inputs, an overlong length and a stray end of group are errors. -/
example : [[10], [10, 5, 65], [10, 0xff, 0xff, 0xff, 0xff, 0xff, 0xff, 0xff, 0xff, 0xff, 1], [12], [0]].map
    (GrantDeviceCode.unmarshal {}) = List.replicate 5 .err := rfl

/-- A record of an unknown field that ends within a group is an error. -/
example : GrantDeviceCode.unmarshal {} [251, 1, 8, 1] = .err := rfl

example : Actor.decode 100 {} [34, 2, 18, 0] = Actor.unmarshal {} [34, 2, 18, 0] := C52_actor_depth 100 _ _ (by decide)

end Verif.Props
