import Verif.Model.Pb
import Verif.Proofs.WireDecode

/-! Per message: what is written is read back, and the decoder keeps what it does not know. -/
namespace Verif.Pb
open Verif.Jose (Out)
open Verif.Wire

/-! #### `AuthenticateRequest` -/

/-- The kept records are records of other fields. -/
structure AuthenticateRequest.Ok (m : AuthenticateRequest) : Prop where
  unknown : Unknowns (AuthenticateRequest.fields.map Prod.fst) m.unknown

theorem AuthenticateRequest.Ok.empty : AuthenticateRequest.Ok {} := ⟨.nil⟩

theorem AuthenticateRequest.chain (x : AuthenticateRequest) (h : x.Ok) : Chain AuthenticateRequest.fields AuthenticateRequest.keep x.parts {} x := by
  cases x
  refine chain_cons (partOk_optStr (num := 1) (set := fun s m => { m with clientId := s }) rfl rfl (by decide) (by decide) rfl) ?_
  refine chain_cons (partOk_optStr (num := 2) (set := fun s m => { m with clientSecret := s }) rfl rfl (by decide) (by decide) rfl) ?_
  refine chain_cons (partOk_optStr (num := 3) (set := fun s m => { m with clientAssertionType := s }) rfl rfl (by decide) (by decide) rfl) ?_
  refine chain_cons (partOk_optStr (num := 4) (set := fun s m => { m with clientAssertion := s }) rfl rfl (by decide) (by decide) rfl) ?_
  refine chain_cons (partOk_raw h.unknown (fun _ _ => by simp [AuthenticateRequest.keep]) rfl) ?_
  exact chain_nil _

theorem AuthenticateRequest.dec (x : AuthenticateRequest) (h : x.Ok) :
    ∃ e, EncAll x.parts e ∧ (e.length < 2 ^ 63 → AuthenticateRequest.unmarshal {} e = .ok x) :=
  dec_of_chain (x.chain h)

theorem AuthenticateRequest.sane : SaneDec AuthenticateRequest.Ok AuthenticateRequest.unmarshal := by
  refine saneDec ?_ fun u m h hu => ⟨.snoc h.unknown hu⟩
  refine forall_field (sane_str fun _ _ h => ⟨h.unknown⟩) ?_
  refine forall_field (sane_str fun _ _ h => ⟨h.unknown⟩) ?_
  refine forall_field (sane_str fun _ _ h => ⟨h.unknown⟩) ?_
  refine forall_field (sane_str fun _ _ h => ⟨h.unknown⟩) ?_
  exact forall_none

/-! #### `Error` -/

/-- The kept records are records of other fields. -/
structure Error.Ok (m : Error) : Prop where
  unknown : Unknowns (Error.fields.map Prod.fst) m.unknown

theorem Error.Ok.empty : Error.Ok {} := ⟨.nil⟩

theorem Error.chain (x : Error) (h : x.Ok) : Chain Error.fields Error.keep x.parts {} x := by
  cases x
  refine chain_cons (partOk_str (num := 1) (set := fun s m => { m with err := s }) rfl rfl (by decide) (by decide) rfl) ?_
  refine chain_cons (partOk_str (num := 2) (set := fun s m => { m with errorDescription := s }) rfl rfl (by decide) (by decide) rfl) ?_
  refine chain_cons (partOk_optStr (num := 3) (set := fun s m => { m with errorUri := s }) rfl rfl (by decide) (by decide) rfl) ?_
  refine chain_cons (partOk_optStr (num := 4) (set := fun s m => { m with state := s }) rfl rfl (by decide) (by decide) rfl) ?_
  refine chain_cons (partOk_optStr (num := 5) (set := fun s m => { m with resource := s }) rfl rfl (by decide) (by decide) rfl) ?_
  refine chain_cons (partOk_raw h.unknown (fun _ _ => by simp [Error.keep]) rfl) ?_
  exact chain_nil _

theorem Error.dec (x : Error) (h : x.Ok) :
    ∃ e, EncAll x.parts e ∧ (e.length < 2 ^ 63 → Error.unmarshal {} e = .ok x) :=
  dec_of_chain (x.chain h)

theorem Error.sane : SaneDec Error.Ok Error.unmarshal := by
  refine saneDec ?_ fun u m h hu => ⟨.snoc h.unknown hu⟩
  refine forall_field (sane_str fun _ _ h => ⟨h.unknown⟩) ?_
  refine forall_field (sane_str fun _ _ h => ⟨h.unknown⟩) ?_
  refine forall_field (sane_str fun _ _ h => ⟨h.unknown⟩) ?_
  refine forall_field (sane_str fun _ _ h => ⟨h.unknown⟩) ?_
  refine forall_field (sane_str fun _ _ h => ⟨h.unknown⟩) ?_
  exact forall_none

/-! #### `Client` -/

/-- The kept records are records of other fields. -/
structure Client.Ok (m : Client) : Prop where
  unknown : Unknowns (Client.fields.map Prod.fst) m.unknown

theorem Client.Ok.empty : Client.Ok {} := ⟨.nil⟩

theorem Client.chain (x : Client) (h : x.Ok) : Chain Client.fields Client.keep x.parts {} x := by
  cases x
  refine chain_cons (partOk_str (num := 1) (set := fun s m => { m with clientId := s }) rfl rfl (by decide) (by decide) rfl) ?_
  refine chain_cons (partOk_enum (num := 2) (set := fun s m => { m with clientType := s }) rfl rfl (by decide) (by decide) rfl) ?_
  refine chain_cons (partOk_repStr (num := 3) (get := fun m => m.redirectUris) (set := fun s m => { m with redirectUris := s }) rfl rfl (by decide) (by decide) (fun _ _ => rfl)
    (fun _ _ _ => rfl) (fun _ => rfl) rfl) ?_
  refine chain_cons (partOk_repStr (num := 4) (get := fun m => m.responseTypes) (set := fun s m => { m with responseTypes := s }) rfl rfl (by decide) (by decide) (fun _ _ => rfl)
    (fun _ _ _ => rfl) (fun _ => rfl) rfl) ?_
  refine chain_cons (partOk_repStr (num := 5) (get := fun m => m.responseModes) (set := fun s m => { m with responseModes := s }) rfl rfl (by decide) (by decide) (fun _ _ => rfl)
    (fun _ _ _ => rfl) (fun _ => rfl) rfl) ?_
  refine chain_cons (partOk_repStr (num := 6) (get := fun m => m.grantTypes) (set := fun s m => { m with grantTypes := s }) rfl rfl (by decide) (by decide) (fun _ _ => rfl)
    (fun _ _ _ => rfl) (fun _ => rfl) rfl) ?_
  refine chain_cons (partOk_str (num := 7) (set := fun s m => { m with applicationType := s }) rfl rfl (by decide) (by decide) rfl) ?_
  refine chain_cons (partOk_repStr (num := 8) (get := fun m => m.contacts) (set := fun s m => { m with contacts := s }) rfl rfl (by decide) (by decide) (fun _ _ => rfl)
    (fun _ _ _ => rfl) (fun _ => rfl) rfl) ?_
  refine chain_cons (partOk_str (num := 9) (set := fun s m => { m with clientName := s }) rfl rfl (by decide) (by decide) rfl) ?_
  refine chain_cons (partOk_str (num := 10) (set := fun s m => { m with logoUri := s }) rfl rfl (by decide) (by decide) rfl) ?_
  refine chain_cons (partOk_str (num := 11) (set := fun s m => { m with clientUri := s }) rfl rfl (by decide) (by decide) rfl) ?_
  refine chain_cons (partOk_str (num := 12) (set := fun s m => { m with policyUri := s }) rfl rfl (by decide) (by decide) rfl) ?_
  refine chain_cons (partOk_str (num := 13) (set := fun s m => { m with tosUri := s }) rfl rfl (by decide) (by decide) rfl) ?_
  refine chain_cons (partOk_str (num := 14) (set := fun s m => { m with jwksUri := s }) rfl rfl (by decide) (by decide) rfl) ?_
  refine chain_cons (partOk_str (num := 15) (set := fun s m => { m with jwks := s }) rfl rfl (by decide) (by decide) rfl) ?_
  refine chain_cons (partOk_str (num := 16) (set := fun s m => { m with clientSecret := s }) rfl rfl (by decide) (by decide) rfl) ?_
  refine chain_cons (partOk_str (num := 17) (set := fun s m => { m with subjectType := s }) rfl rfl (by decide) (by decide) rfl) ?_
  refine chain_cons (partOk_str (num := 18) (set := fun s m => { m with sectorIdentifier := s }) rfl rfl (by decide) (by decide) rfl) ?_
  refine chain_cons (partOk_str (num := 19) (set := fun s m => { m with tokenEndpointAuthMethod := s }) rfl rfl (by decide) (by decide) rfl) ?_
  refine chain_cons (partOk_str (num := 20) (set := fun s m => { m with tlsClientAuthSubjectDn := s }) rfl rfl (by decide) (by decide) rfl) ?_
  refine chain_cons (partOk_str (num := 21) (set := fun s m => { m with tlsClientAuthSanDns := s }) rfl rfl (by decide) (by decide) rfl) ?_
  refine chain_cons (partOk_str (num := 22) (set := fun s m => { m with tlsClientAuthSanUri := s }) rfl rfl (by decide) (by decide) rfl) ?_
  refine chain_cons (partOk_str (num := 23) (set := fun s m => { m with tlsClientAuthSanIp := s }) rfl rfl (by decide) (by decide) rfl) ?_
  refine chain_cons (partOk_str (num := 24) (set := fun s m => { m with tlsClientAuthSanEmail := s }) rfl rfl (by decide) (by decide) rfl) ?_
  refine chain_cons (partOk_bool (num := 25) (set := fun s m => { m with tlsClientCertificateBoundAccessTokens := s }) rfl rfl (by decide) (by decide) rfl) ?_
  refine chain_cons (partOk_bool (num := 26) (set := fun s m => { m with requirePushedAuthorizationRequests := s }) rfl rfl (by decide) (by decide) rfl) ?_
  refine chain_cons (partOk_bool (num := 27) (set := fun s m => { m with requireSignedRequestObject := s }) rfl rfl (by decide) (by decide) rfl) ?_
  refine chain_cons (partOk_bool (num := 28) (set := fun s m => { m with dpopBoundAccessTokens := s }) rfl rfl (by decide) (by decide) rfl) ?_
  refine chain_cons (partOk_raw h.unknown (fun _ _ => by simp [Client.keep]) rfl) ?_
  exact chain_nil _

theorem Client.dec (x : Client) (h : x.Ok) :
    ∃ e, EncAll x.parts e ∧ (e.length < 2 ^ 63 → Client.unmarshal {} e = .ok x) :=
  dec_of_chain (x.chain h)

theorem Client.sane : SaneDec Client.Ok Client.unmarshal := by
  refine saneDec ?_ fun u m h hu => ⟨.snoc h.unknown hu⟩
  refine forall_field (sane_str fun _ _ h => ⟨h.unknown⟩) ?_
  refine forall_field (sane_enum fun _ _ h => ⟨h.unknown⟩) ?_
  refine forall_field (sane_str fun _ _ h => ⟨h.unknown⟩) ?_
  refine forall_field (sane_str fun _ _ h => ⟨h.unknown⟩) ?_
  refine forall_field (sane_str fun _ _ h => ⟨h.unknown⟩) ?_
  refine forall_field (sane_str fun _ _ h => ⟨h.unknown⟩) ?_
  refine forall_field (sane_str fun _ _ h => ⟨h.unknown⟩) ?_
  refine forall_field (sane_str fun _ _ h => ⟨h.unknown⟩) ?_
  refine forall_field (sane_str fun _ _ h => ⟨h.unknown⟩) ?_
  refine forall_field (sane_str fun _ _ h => ⟨h.unknown⟩) ?_
  refine forall_field (sane_str fun _ _ h => ⟨h.unknown⟩) ?_
  refine forall_field (sane_str fun _ _ h => ⟨h.unknown⟩) ?_
  refine forall_field (sane_str fun _ _ h => ⟨h.unknown⟩) ?_
  refine forall_field (sane_str fun _ _ h => ⟨h.unknown⟩) ?_
  refine forall_field (sane_str fun _ _ h => ⟨h.unknown⟩) ?_
  refine forall_field (sane_str fun _ _ h => ⟨h.unknown⟩) ?_
  refine forall_field (sane_str fun _ _ h => ⟨h.unknown⟩) ?_
  refine forall_field (sane_str fun _ _ h => ⟨h.unknown⟩) ?_
  refine forall_field (sane_str fun _ _ h => ⟨h.unknown⟩) ?_
  refine forall_field (sane_str fun _ _ h => ⟨h.unknown⟩) ?_
  refine forall_field (sane_str fun _ _ h => ⟨h.unknown⟩) ?_
  refine forall_field (sane_str fun _ _ h => ⟨h.unknown⟩) ?_
  refine forall_field (sane_str fun _ _ h => ⟨h.unknown⟩) ?_
  refine forall_field (sane_str fun _ _ h => ⟨h.unknown⟩) ?_
  refine forall_field (sane_bool fun _ _ h => ⟨h.unknown⟩) ?_
  refine forall_field (sane_bool fun _ _ h => ⟨h.unknown⟩) ?_
  refine forall_field (sane_bool fun _ _ h => ⟨h.unknown⟩) ?_
  refine forall_field (sane_bool fun _ _ h => ⟨h.unknown⟩) ?_
  exact forall_none

/-! #### `AuthenticateResponse` -/

/-- The kept records are records of other fields. -/
structure AuthenticateResponse.Ok (m : AuthenticateResponse) : Prop where
  error : ∀ x, m.error = some x → x.Ok
  client : ∀ x, m.client = some x → x.Ok
  unknown : Unknowns (AuthenticateResponse.fields.map Prod.fst) m.unknown

theorem AuthenticateResponse.Ok.empty : AuthenticateResponse.Ok {} := ⟨ok_none, ok_none, .nil⟩

theorem AuthenticateResponse.chain (x : AuthenticateResponse) (h : x.Ok) : Chain AuthenticateResponse.fields AuthenticateResponse.keep x.parts {} x := by
  cases x
  refine chain_cons (partOk_optMsg (num := 1) (get := fun m => m.error.getD {}) (set := fun s m => { m with error := s }) rfl rfl (by decide) (by decide) rfl
    (fun s hs => s.dec (h.error s hs))) ?_
  refine chain_cons (partOk_optMsg (num := 2) (get := fun m => m.client.getD {}) (set := fun s m => { m with client := s }) rfl rfl (by decide) (by decide) rfl
    (fun s hs => s.dec (h.client s hs))) ?_
  refine chain_cons (partOk_raw h.unknown (fun _ _ => by simp [AuthenticateResponse.keep]) rfl) ?_
  exact chain_nil _

theorem AuthenticateResponse.dec (x : AuthenticateResponse) (h : x.Ok) :
    ∃ e, EncAll x.parts e ∧ (e.length < 2 ^ 63 → AuthenticateResponse.unmarshal {} e = .ok x) :=
  dec_of_chain (x.chain h)

theorem AuthenticateResponse.sane : SaneDec AuthenticateResponse.Ok AuthenticateResponse.unmarshal := by
  refine saneDec ?_ fun u m h hu => ⟨h.error, h.client, .snoc h.unknown hu⟩
  refine forall_field (sane_msg Error.sane (fun m h => ok_getD h.error Error.Ok.empty) fun s m h hs => ⟨ok_some hs, h.client, h.unknown⟩) ?_
  refine forall_field (sane_msg Client.sane (fun m h => ok_getD h.client Client.Ok.empty) fun s m h hs => ⟨h.error, ok_some hs, h.unknown⟩) ?_
  exact forall_none

/-! #### `RegisterResponse` -/

/-- The kept records are records of other fields. -/
structure RegisterResponse.Ok (m : RegisterResponse) : Prop where
  error : ∀ x, m.error = some x → x.Ok
  client : ∀ x, m.client = some x → x.Ok
  unknown : Unknowns (RegisterResponse.fields.map Prod.fst) m.unknown

theorem RegisterResponse.Ok.empty : RegisterResponse.Ok {} := ⟨ok_none, ok_none, .nil⟩

theorem RegisterResponse.chain (x : RegisterResponse) (h : x.Ok) : Chain RegisterResponse.fields RegisterResponse.keep x.parts {} x := by
  cases x
  refine chain_cons (partOk_optMsg (num := 1) (get := fun m => m.error.getD {}) (set := fun s m => { m with error := s }) rfl rfl (by decide) (by decide) rfl
    (fun s hs => s.dec (h.error s hs))) ?_
  refine chain_cons (partOk_optMsg (num := 2) (get := fun m => m.client.getD {}) (set := fun s m => { m with client := s }) rfl rfl (by decide) (by decide) rfl
    (fun s hs => s.dec (h.client s hs))) ?_
  refine chain_cons (partOk_raw h.unknown (fun _ _ => by simp [RegisterResponse.keep]) rfl) ?_
  exact chain_nil _

theorem RegisterResponse.dec (x : RegisterResponse) (h : x.Ok) :
    ∃ e, EncAll x.parts e ∧ (e.length < 2 ^ 63 → RegisterResponse.unmarshal {} e = .ok x) :=
  dec_of_chain (x.chain h)

theorem RegisterResponse.sane : SaneDec RegisterResponse.Ok RegisterResponse.unmarshal := by
  refine saneDec ?_ fun u m h hu => ⟨h.error, h.client, .snoc h.unknown hu⟩
  refine forall_field (sane_msg Error.sane (fun m h => ok_getD h.error Error.Ok.empty) fun s m h hs => ⟨ok_some hs, h.client, h.unknown⟩) ?_
  refine forall_field (sane_msg Client.sane (fun m h => ok_getD h.client Client.Ok.empty) fun s m h hs => ⟨h.error, ok_some hs, h.unknown⟩) ?_
  exact forall_none

/-! #### `SoftwareStatement` -/

/-- The kept records are records of other fields. -/
structure SoftwareStatement.Ok (m : SoftwareStatement) : Prop where
  unknown : Unknowns (SoftwareStatement.fields.map Prod.fst) m.unknown

theorem SoftwareStatement.Ok.empty : SoftwareStatement.Ok {} := ⟨.nil⟩

theorem SoftwareStatement.chain (x : SoftwareStatement) (h : x.Ok) : Chain SoftwareStatement.fields SoftwareStatement.keep x.parts {} x := by
  cases x
  refine chain_cons (partOk_str (num := 1) (set := fun s m => { m with softwareId := s }) rfl rfl (by decide) (by decide) rfl) ?_
  refine chain_cons (partOk_raw h.unknown (fun _ _ => by simp [SoftwareStatement.keep]) rfl) ?_
  exact chain_nil _

theorem SoftwareStatement.dec (x : SoftwareStatement) (h : x.Ok) :
    ∃ e, EncAll x.parts e ∧ (e.length < 2 ^ 63 → SoftwareStatement.unmarshal {} e = .ok x) :=
  dec_of_chain (x.chain h)

theorem SoftwareStatement.sane : SaneDec SoftwareStatement.Ok SoftwareStatement.unmarshal := by
  refine saneDec ?_ fun u m h hu => ⟨.snoc h.unknown hu⟩
  refine forall_field (sane_str fun _ _ h => ⟨h.unknown⟩) ?_
  exact forall_none

/-! #### `ProtectedResourceMetadata` -/

/-- The kept records are records of other fields. -/
structure ProtectedResourceMetadata.Ok (m : ProtectedResourceMetadata) : Prop where
  unknown : Unknowns (ProtectedResourceMetadata.fields.map Prod.fst) m.unknown

theorem ProtectedResourceMetadata.Ok.empty : ProtectedResourceMetadata.Ok {} := ⟨.nil⟩

theorem ProtectedResourceMetadata.chain (x : ProtectedResourceMetadata) (h : x.Ok) : Chain ProtectedResourceMetadata.fields ProtectedResourceMetadata.keep x.parts {} x := by
  cases x
  refine chain_cons (partOk_str (num := 1) (set := fun s m => { m with resource := s }) rfl rfl (by decide) (by decide) rfl) ?_
  refine chain_cons (partOk_repStr (num := 2) (get := fun m => m.authorizationServers) (set := fun s m => { m with authorizationServers := s }) rfl rfl (by decide) (by decide) (fun _ _ => rfl)
    (fun _ _ _ => rfl) (fun _ => rfl) rfl) ?_
  refine chain_cons (partOk_optStr (num := 3) (set := fun s m => { m with jwksUri := s }) rfl rfl (by decide) (by decide) rfl) ?_
  refine chain_cons (partOk_repStr (num := 4) (get := fun m => m.scopesProvided) (set := fun s m => { m with scopesProvided := s }) rfl rfl (by decide) (by decide) (fun _ _ => rfl)
    (fun _ _ _ => rfl) (fun _ => rfl) rfl) ?_
  refine chain_cons (partOk_repStr (num := 5) (get := fun m => m.bearerMethodsSupported) (set := fun s m => { m with bearerMethodsSupported := s }) rfl rfl (by decide) (by decide) (fun _ _ => rfl)
    (fun _ _ _ => rfl) (fun _ => rfl) rfl) ?_
  refine chain_cons (partOk_repStr (num := 6) (get := fun m => m.resourceSigningAlgValuesSupported) (set := fun s m => { m with resourceSigningAlgValuesSupported := s }) rfl rfl (by decide) (by decide) (fun _ _ => rfl)
    (fun _ _ _ => rfl) (fun _ => rfl) rfl) ?_
  refine chain_cons (partOk_repStr (num := 7) (get := fun m => m.resourceEncryptionAlgValuesSupported) (set := fun s m => { m with resourceEncryptionAlgValuesSupported := s }) rfl rfl (by decide) (by decide) (fun _ _ => rfl)
    (fun _ _ _ => rfl) (fun _ => rfl) rfl) ?_
  refine chain_cons (partOk_repStr (num := 8) (get := fun m => m.resourceEncryptionEncValuesSupported) (set := fun s m => { m with resourceEncryptionEncValuesSupported := s }) rfl rfl (by decide) (by decide) (fun _ _ => rfl)
    (fun _ _ _ => rfl) (fun _ => rfl) rfl) ?_
  refine chain_cons (partOk_optStr (num := 9) (set := fun s m => { m with resourceDocumentation := s }) rfl rfl (by decide) (by decide) rfl) ?_
  refine chain_cons (partOk_optStr (num := 10) (set := fun s m => { m with resourcePolicyUri := s }) rfl rfl (by decide) (by decide) rfl) ?_
  refine chain_cons (partOk_optStr (num := 11) (set := fun s m => { m with resourceTosUri := s }) rfl rfl (by decide) (by decide) rfl) ?_
  refine chain_cons (partOk_optStr (num := 12) (set := fun s m => { m with signedMetadata := s }) rfl rfl (by decide) (by decide) rfl) ?_
  refine chain_cons (partOk_raw h.unknown (fun _ _ => by simp [ProtectedResourceMetadata.keep]) rfl) ?_
  exact chain_nil _

theorem ProtectedResourceMetadata.dec (x : ProtectedResourceMetadata) (h : x.Ok) :
    ∃ e, EncAll x.parts e ∧ (e.length < 2 ^ 63 → ProtectedResourceMetadata.unmarshal {} e = .ok x) :=
  dec_of_chain (x.chain h)

theorem ProtectedResourceMetadata.sane : SaneDec ProtectedResourceMetadata.Ok ProtectedResourceMetadata.unmarshal := by
  refine saneDec ?_ fun u m h hu => ⟨.snoc h.unknown hu⟩
  refine forall_field (sane_str fun _ _ h => ⟨h.unknown⟩) ?_
  refine forall_field (sane_str fun _ _ h => ⟨h.unknown⟩) ?_
  refine forall_field (sane_str fun _ _ h => ⟨h.unknown⟩) ?_
  refine forall_field (sane_str fun _ _ h => ⟨h.unknown⟩) ?_
  refine forall_field (sane_str fun _ _ h => ⟨h.unknown⟩) ?_
  refine forall_field (sane_str fun _ _ h => ⟨h.unknown⟩) ?_
  refine forall_field (sane_str fun _ _ h => ⟨h.unknown⟩) ?_
  refine forall_field (sane_str fun _ _ h => ⟨h.unknown⟩) ?_
  refine forall_field (sane_str fun _ _ h => ⟨h.unknown⟩) ?_
  refine forall_field (sane_str fun _ _ h => ⟨h.unknown⟩) ?_
  refine forall_field (sane_str fun _ _ h => ⟨h.unknown⟩) ?_
  refine forall_field (sane_str fun _ _ h => ⟨h.unknown⟩) ?_
  exact forall_none

/-! #### `MTLSEndpoints` -/

/-- The kept records are records of other fields. -/
structure MTLSEndpoints.Ok (m : MTLSEndpoints) : Prop where
  unknown : Unknowns (MTLSEndpoints.fields.map Prod.fst) m.unknown

theorem MTLSEndpoints.Ok.empty : MTLSEndpoints.Ok {} := ⟨.nil⟩

theorem MTLSEndpoints.chain (x : MTLSEndpoints) (h : x.Ok) : Chain MTLSEndpoints.fields MTLSEndpoints.keep x.parts {} x := by
  cases x
  refine chain_cons (partOk_str (num := 1) (set := fun s m => { m with tokenEndpoint := s }) rfl rfl (by decide) (by decide) rfl) ?_
  refine chain_cons (partOk_str (num := 2) (set := fun s m => { m with revocationEndpoint := s }) rfl rfl (by decide) (by decide) rfl) ?_
  refine chain_cons (partOk_str (num := 3) (set := fun s m => { m with introspectionEndpoint := s }) rfl rfl (by decide) (by decide) rfl) ?_
  refine chain_cons (partOk_str (num := 4) (set := fun s m => { m with pushedAuthorizationRequestEndpoint := s }) rfl rfl (by decide) (by decide) rfl) ?_
  refine chain_cons (partOk_str (num := 5) (set := fun s m => { m with deviceAuthorizationEndpoint := s }) rfl rfl (by decide) (by decide) rfl) ?_
  refine chain_cons (partOk_raw h.unknown (fun _ _ => by simp [MTLSEndpoints.keep]) rfl) ?_
  exact chain_nil _

theorem MTLSEndpoints.dec (x : MTLSEndpoints) (h : x.Ok) :
    ∃ e, EncAll x.parts e ∧ (e.length < 2 ^ 63 → MTLSEndpoints.unmarshal {} e = .ok x) :=
  dec_of_chain (x.chain h)

theorem MTLSEndpoints.sane : SaneDec MTLSEndpoints.Ok MTLSEndpoints.unmarshal := by
  refine saneDec ?_ fun u m h hu => ⟨.snoc h.unknown hu⟩
  refine forall_field (sane_str fun _ _ h => ⟨h.unknown⟩) ?_
  refine forall_field (sane_str fun _ _ h => ⟨h.unknown⟩) ?_
  refine forall_field (sane_str fun _ _ h => ⟨h.unknown⟩) ?_
  refine forall_field (sane_str fun _ _ h => ⟨h.unknown⟩) ?_
  refine forall_field (sane_str fun _ _ h => ⟨h.unknown⟩) ?_
  exact forall_none

/-! #### `ServerMetadata` -/

/-- The kept records are records of other fields. -/
structure ServerMetadata.Ok (m : ServerMetadata) : Prop where
  mtlsEndpointAliases : ∀ x, m.mtlsEndpointAliases = some x → x.Ok
  unknown : Unknowns (ServerMetadata.fields.map Prod.fst) m.unknown

theorem ServerMetadata.Ok.empty : ServerMetadata.Ok {} := ⟨ok_none, .nil⟩

theorem ServerMetadata.chain (x : ServerMetadata) (h : x.Ok) : Chain ServerMetadata.fields ServerMetadata.keep x.parts {} x := by
  cases x
  refine chain_cons (partOk_str (num := 1) (set := fun s m => { m with issuer := s }) rfl rfl (by decide) (by decide) rfl) ?_
  refine chain_cons (partOk_str (num := 2) (set := fun s m => { m with authorizationEndpoint := s }) rfl rfl (by decide) (by decide) rfl) ?_
  refine chain_cons (partOk_str (num := 3) (set := fun s m => { m with tokenEndpoint := s }) rfl rfl (by decide) (by decide) rfl) ?_
  refine chain_cons (partOk_str (num := 4) (set := fun s m => { m with jwksUri := s }) rfl rfl (by decide) (by decide) rfl) ?_
  refine chain_cons (partOk_str (num := 5) (set := fun s m => { m with userinfoEndpoint := s }) rfl rfl (by decide) (by decide) rfl) ?_
  refine chain_cons (partOk_str (num := 6) (set := fun s m => { m with registrationEndpoint := s }) rfl rfl (by decide) (by decide) rfl) ?_
  refine chain_cons (partOk_repStr (num := 7) (get := fun m => m.scopesSupported) (set := fun s m => { m with scopesSupported := s }) rfl rfl (by decide) (by decide) (fun _ _ => rfl)
    (fun _ _ _ => rfl) (fun _ => rfl) rfl) ?_
  refine chain_cons (partOk_repStr (num := 8) (get := fun m => m.responseTypesSupported) (set := fun s m => { m with responseTypesSupported := s }) rfl rfl (by decide) (by decide) (fun _ _ => rfl)
    (fun _ _ _ => rfl) (fun _ => rfl) rfl) ?_
  refine chain_cons (partOk_repStr (num := 9) (get := fun m => m.responseModesSupported) (set := fun s m => { m with responseModesSupported := s }) rfl rfl (by decide) (by decide) (fun _ _ => rfl)
    (fun _ _ _ => rfl) (fun _ => rfl) rfl) ?_
  refine chain_cons (partOk_repStr (num := 10) (get := fun m => m.grantTypesSupported) (set := fun s m => { m with grantTypesSupported := s }) rfl rfl (by decide) (by decide) (fun _ _ => rfl)
    (fun _ _ _ => rfl) (fun _ => rfl) rfl) ?_
  refine chain_cons (partOk_repStr (num := 11) (get := fun m => m.acrValuesSupported) (set := fun s m => { m with acrValuesSupported := s }) rfl rfl (by decide) (by decide) (fun _ _ => rfl)
    (fun _ _ _ => rfl) (fun _ => rfl) rfl) ?_
  refine chain_cons (partOk_repStr (num := 12) (get := fun m => m.subjectTypesSupported) (set := fun s m => { m with subjectTypesSupported := s }) rfl rfl (by decide) (by decide) (fun _ _ => rfl)
    (fun _ _ _ => rfl) (fun _ => rfl) rfl) ?_
  refine chain_cons (partOk_repStr (num := 13) (get := fun m => m.idTokenSigningAlgValuesSupported) (set := fun s m => { m with idTokenSigningAlgValuesSupported := s }) rfl rfl (by decide) (by decide) (fun _ _ => rfl)
    (fun _ _ _ => rfl) (fun _ => rfl) rfl) ?_
  refine chain_cons (partOk_repStr (num := 14) (get := fun m => m.idTokenEncryptionAlgValuesSupported) (set := fun s m => { m with idTokenEncryptionAlgValuesSupported := s }) rfl rfl (by decide) (by decide) (fun _ _ => rfl)
    (fun _ _ _ => rfl) (fun _ => rfl) rfl) ?_
  refine chain_cons (partOk_repStr (num := 15) (get := fun m => m.idTokenEncryptionEncValuesSupported) (set := fun s m => { m with idTokenEncryptionEncValuesSupported := s }) rfl rfl (by decide) (by decide) (fun _ _ => rfl)
    (fun _ _ _ => rfl) (fun _ => rfl) rfl) ?_
  refine chain_cons (partOk_repStr (num := 16) (get := fun m => m.userinfoSigningAlgValuesSupported) (set := fun s m => { m with userinfoSigningAlgValuesSupported := s }) rfl rfl (by decide) (by decide) (fun _ _ => rfl)
    (fun _ _ _ => rfl) (fun _ => rfl) rfl) ?_
  refine chain_cons (partOk_repStr (num := 17) (get := fun m => m.userinfoEncryptionAlgValuesSupported) (set := fun s m => { m with userinfoEncryptionAlgValuesSupported := s }) rfl rfl (by decide) (by decide) (fun _ _ => rfl)
    (fun _ _ _ => rfl) (fun _ => rfl) rfl) ?_
  refine chain_cons (partOk_repStr (num := 18) (get := fun m => m.userinfoEncryptionEncValuesSupported) (set := fun s m => { m with userinfoEncryptionEncValuesSupported := s }) rfl rfl (by decide) (by decide) (fun _ _ => rfl)
    (fun _ _ _ => rfl) (fun _ => rfl) rfl) ?_
  refine chain_cons (partOk_repStr (num := 19) (get := fun m => m.requestObjectSigningAlgValuesSupported) (set := fun s m => { m with requestObjectSigningAlgValuesSupported := s }) rfl rfl (by decide) (by decide) (fun _ _ => rfl)
    (fun _ _ _ => rfl) (fun _ => rfl) rfl) ?_
  refine chain_cons (partOk_repStr (num := 20) (get := fun m => m.requestObjectEncryptionAlgValuesSupported) (set := fun s m => { m with requestObjectEncryptionAlgValuesSupported := s }) rfl rfl (by decide) (by decide) (fun _ _ => rfl)
    (fun _ _ _ => rfl) (fun _ => rfl) rfl) ?_
  refine chain_cons (partOk_repStr (num := 21) (get := fun m => m.requestObjectEncryptionEncValuesSupported) (set := fun s m => { m with requestObjectEncryptionEncValuesSupported := s }) rfl rfl (by decide) (by decide) (fun _ _ => rfl)
    (fun _ _ _ => rfl) (fun _ => rfl) rfl) ?_
  refine chain_cons (partOk_repStr (num := 22) (get := fun m => m.tokenEndpointAuthMethodsSupported) (set := fun s m => { m with tokenEndpointAuthMethodsSupported := s }) rfl rfl (by decide) (by decide) (fun _ _ => rfl)
    (fun _ _ _ => rfl) (fun _ => rfl) rfl) ?_
  refine chain_cons (partOk_repStr (num := 23) (get := fun m => m.tokenEndpointAuthSigningAlgValuesSupported) (set := fun s m => { m with tokenEndpointAuthSigningAlgValuesSupported := s }) rfl rfl (by decide) (by decide) (fun _ _ => rfl)
    (fun _ _ _ => rfl) (fun _ => rfl) rfl) ?_
  refine chain_cons (partOk_repStr (num := 24) (get := fun m => m.displayValuesSupported) (set := fun s m => { m with displayValuesSupported := s }) rfl rfl (by decide) (by decide) (fun _ _ => rfl)
    (fun _ _ _ => rfl) (fun _ => rfl) rfl) ?_
  refine chain_cons (partOk_repStr (num := 25) (get := fun m => m.claimTypesSupported) (set := fun s m => { m with claimTypesSupported := s }) rfl rfl (by decide) (by decide) (fun _ _ => rfl)
    (fun _ _ _ => rfl) (fun _ => rfl) rfl) ?_
  refine chain_cons (partOk_repStr (num := 26) (get := fun m => m.claimsSupported) (set := fun s m => { m with claimsSupported := s }) rfl rfl (by decide) (by decide) (fun _ _ => rfl)
    (fun _ _ _ => rfl) (fun _ => rfl) rfl) ?_
  refine chain_cons (partOk_str (num := 27) (set := fun s m => { m with serviceDocumentation := s }) rfl rfl (by decide) (by decide) rfl) ?_
  refine chain_cons (partOk_repStr (num := 28) (get := fun m => m.claimsLocalesSupported) (set := fun s m => { m with claimsLocalesSupported := s }) rfl rfl (by decide) (by decide) (fun _ _ => rfl)
    (fun _ _ _ => rfl) (fun _ => rfl) rfl) ?_
  refine chain_cons (partOk_repStr (num := 29) (get := fun m => m.uiLocalesSupported) (set := fun s m => { m with uiLocalesSupported := s }) rfl rfl (by decide) (by decide) (fun _ _ => rfl)
    (fun _ _ _ => rfl) (fun _ => rfl) rfl) ?_
  refine chain_cons (partOk_bool (num := 30) (set := fun s m => { m with claimsParameterSupported := s }) rfl rfl (by decide) (by decide) rfl) ?_
  refine chain_cons (partOk_bool (num := 31) (set := fun s m => { m with requestParameterSupported := s }) rfl rfl (by decide) (by decide) rfl) ?_
  refine chain_cons (partOk_bool (num := 32) (set := fun s m => { m with requestUriParameterSupported := s }) rfl rfl (by decide) (by decide) rfl) ?_
  refine chain_cons (partOk_bool (num := 33) (set := fun s m => { m with requireRequestUriRegistration := s }) rfl rfl (by decide) (by decide) rfl) ?_
  refine chain_cons (partOk_str (num := 34) (set := fun s m => { m with opPolicyUri := s }) rfl rfl (by decide) (by decide) rfl) ?_
  refine chain_cons (partOk_str (num := 35) (set := fun s m => { m with opTosUri := s }) rfl rfl (by decide) (by decide) rfl) ?_
  refine chain_cons (partOk_str (num := 36) (set := fun s m => { m with revocationEndpoint := s }) rfl rfl (by decide) (by decide) rfl) ?_
  refine chain_cons (partOk_repStr (num := 37) (get := fun m => m.revocationEndpointAuthMethodsSupported) (set := fun s m => { m with revocationEndpointAuthMethodsSupported := s }) rfl rfl (by decide) (by decide) (fun _ _ => rfl)
    (fun _ _ _ => rfl) (fun _ => rfl) rfl) ?_
  refine chain_cons (partOk_repStr (num := 38) (get := fun m => m.revocationEndpointAuthSigningAlgValuesSupported) (set := fun s m => { m with revocationEndpointAuthSigningAlgValuesSupported := s }) rfl rfl (by decide) (by decide) (fun _ _ => rfl)
    (fun _ _ _ => rfl) (fun _ => rfl) rfl) ?_
  refine chain_cons (partOk_str (num := 39) (set := fun s m => { m with introspectionEndpoint := s }) rfl rfl (by decide) (by decide) rfl) ?_
  refine chain_cons (partOk_repStr (num := 40) (get := fun m => m.introspectionEndpointAuthMethodsSupported) (set := fun s m => { m with introspectionEndpointAuthMethodsSupported := s }) rfl rfl (by decide) (by decide) (fun _ _ => rfl)
    (fun _ _ _ => rfl) (fun _ => rfl) rfl) ?_
  refine chain_cons (partOk_repStr (num := 41) (get := fun m => m.introspectionEndpointAuthSigningAlgValuesSupported) (set := fun s m => { m with introspectionEndpointAuthSigningAlgValuesSupported := s }) rfl rfl (by decide) (by decide) (fun _ _ => rfl)
    (fun _ _ _ => rfl) (fun _ => rfl) rfl) ?_
  refine chain_cons (partOk_repStr (num := 42) (get := fun m => m.codeChallengeMethodsSupported) (set := fun s m => { m with codeChallengeMethodsSupported := s }) rfl rfl (by decide) (by decide) (fun _ _ => rfl)
    (fun _ _ _ => rfl) (fun _ => rfl) rfl) ?_
  refine chain_cons (partOk_str (num := 43) (set := fun s m => { m with pushedAuthorizationRequestEndpoint := s }) rfl rfl (by decide) (by decide) rfl) ?_
  refine chain_cons (partOk_repStr (num := 44) (get := fun m => m.pushedAuthorizationRequestEndpointAuthMethodsSupported) (set := fun s m => { m with pushedAuthorizationRequestEndpointAuthMethodsSupported := s }) rfl rfl (by decide) (by decide) (fun _ _ => rfl)
    (fun _ _ _ => rfl) (fun _ => rfl) rfl) ?_
  refine chain_cons (partOk_optMsg (num := 45) (get := fun m => m.mtlsEndpointAliases.getD {}) (set := fun s m => { m with mtlsEndpointAliases := s }) rfl rfl (by decide) (by decide) rfl
    (fun s hs => s.dec (h.mtlsEndpointAliases s hs))) ?_
  refine chain_cons (partOk_str (num := 46) (set := fun s m => { m with deviceAuthorizationEndpoint := s }) rfl rfl (by decide) (by decide) rfl) ?_
  refine chain_cons (partOk_repStr (num := 47) (get := fun m => m.dpopSigningAlgValuesSupported) (set := fun s m => { m with dpopSigningAlgValuesSupported := s }) rfl rfl (by decide) (by decide) (fun _ _ => rfl)
    (fun _ _ _ => rfl) (fun _ => rfl) rfl) ?_
  refine chain_cons (partOk_bool (num := 48) (set := fun s m => { m with tlsClientCertificateBoundAccessTokens := s }) rfl rfl (by decide) (by decide) rfl) ?_
  refine chain_cons (partOk_repStr (num := 49) (get := fun m => m.authorizationSigningAlgValuesSupported) (set := fun s m => { m with authorizationSigningAlgValuesSupported := s }) rfl rfl (by decide) (by decide) (fun _ _ => rfl)
    (fun _ _ _ => rfl) (fun _ => rfl) rfl) ?_
  refine chain_cons (partOk_repStr (num := 50) (get := fun m => m.authorizationEncryptionAlgValuesSupported) (set := fun s m => { m with authorizationEncryptionAlgValuesSupported := s }) rfl rfl (by decide) (by decide) (fun _ _ => rfl)
    (fun _ _ _ => rfl) (fun _ => rfl) rfl) ?_
  refine chain_cons (partOk_repStr (num := 51) (get := fun m => m.authorizationEncryptionEncValuesSupported) (set := fun s m => { m with authorizationEncryptionEncValuesSupported := s }) rfl rfl (by decide) (by decide) (fun _ _ => rfl)
    (fun _ _ _ => rfl) (fun _ => rfl) rfl) ?_
  refine chain_cons (partOk_bool (num := 52) (set := fun s m => { m with authorizationResponseIssParameterSupported := s }) rfl rfl (by decide) (by decide) rfl) ?_
  refine chain_cons (partOk_repStr (num := 53) (get := fun m => m.introspectionSigningAlgValuesSupported) (set := fun s m => { m with introspectionSigningAlgValuesSupported := s }) rfl rfl (by decide) (by decide) (fun _ _ => rfl)
    (fun _ _ _ => rfl) (fun _ => rfl) rfl) ?_
  refine chain_cons (partOk_repStr (num := 54) (get := fun m => m.introspectionEncryptionAlgValuesSupported) (set := fun s m => { m with introspectionEncryptionAlgValuesSupported := s }) rfl rfl (by decide) (by decide) (fun _ _ => rfl)
    (fun _ _ _ => rfl) (fun _ => rfl) rfl) ?_
  refine chain_cons (partOk_repStr (num := 55) (get := fun m => m.introspectionEncryptionEncValuesSupported) (set := fun s m => { m with introspectionEncryptionEncValuesSupported := s }) rfl rfl (by decide) (by decide) (fun _ _ => rfl)
    (fun _ _ _ => rfl) (fun _ => rfl) rfl) ?_
  refine chain_cons (partOk_str (num := 56) (set := fun s m => { m with signedMetadata := s }) rfl rfl (by decide) (by decide) rfl) ?_
  refine chain_cons (partOk_raw h.unknown (fun _ _ => by simp [ServerMetadata.keep]) rfl) ?_
  exact chain_nil _

theorem ServerMetadata.dec (x : ServerMetadata) (h : x.Ok) :
    ∃ e, EncAll x.parts e ∧ (e.length < 2 ^ 63 → ServerMetadata.unmarshal {} e = .ok x) :=
  dec_of_chain (x.chain h)

theorem ServerMetadata.sane : SaneDec ServerMetadata.Ok ServerMetadata.unmarshal := by
  refine saneDec ?_ fun u m h hu => ⟨h.mtlsEndpointAliases, .snoc h.unknown hu⟩
  refine forall_field (sane_str fun _ _ h => ⟨h.mtlsEndpointAliases, h.unknown⟩) ?_
  refine forall_field (sane_str fun _ _ h => ⟨h.mtlsEndpointAliases, h.unknown⟩) ?_
  refine forall_field (sane_str fun _ _ h => ⟨h.mtlsEndpointAliases, h.unknown⟩) ?_
  refine forall_field (sane_str fun _ _ h => ⟨h.mtlsEndpointAliases, h.unknown⟩) ?_
  refine forall_field (sane_str fun _ _ h => ⟨h.mtlsEndpointAliases, h.unknown⟩) ?_
  refine forall_field (sane_str fun _ _ h => ⟨h.mtlsEndpointAliases, h.unknown⟩) ?_
  refine forall_field (sane_str fun _ _ h => ⟨h.mtlsEndpointAliases, h.unknown⟩) ?_
  refine forall_field (sane_str fun _ _ h => ⟨h.mtlsEndpointAliases, h.unknown⟩) ?_
  refine forall_field (sane_str fun _ _ h => ⟨h.mtlsEndpointAliases, h.unknown⟩) ?_
  refine forall_field (sane_str fun _ _ h => ⟨h.mtlsEndpointAliases, h.unknown⟩) ?_
  refine forall_field (sane_str fun _ _ h => ⟨h.mtlsEndpointAliases, h.unknown⟩) ?_
  refine forall_field (sane_str fun _ _ h => ⟨h.mtlsEndpointAliases, h.unknown⟩) ?_
  refine forall_field (sane_str fun _ _ h => ⟨h.mtlsEndpointAliases, h.unknown⟩) ?_
  refine forall_field (sane_str fun _ _ h => ⟨h.mtlsEndpointAliases, h.unknown⟩) ?_
  refine forall_field (sane_str fun _ _ h => ⟨h.mtlsEndpointAliases, h.unknown⟩) ?_
  refine forall_field (sane_str fun _ _ h => ⟨h.mtlsEndpointAliases, h.unknown⟩) ?_
  refine forall_field (sane_str fun _ _ h => ⟨h.mtlsEndpointAliases, h.unknown⟩) ?_
  refine forall_field (sane_str fun _ _ h => ⟨h.mtlsEndpointAliases, h.unknown⟩) ?_
  refine forall_field (sane_str fun _ _ h => ⟨h.mtlsEndpointAliases, h.unknown⟩) ?_
  refine forall_field (sane_str fun _ _ h => ⟨h.mtlsEndpointAliases, h.unknown⟩) ?_
  refine forall_field (sane_str fun _ _ h => ⟨h.mtlsEndpointAliases, h.unknown⟩) ?_
  refine forall_field (sane_str fun _ _ h => ⟨h.mtlsEndpointAliases, h.unknown⟩) ?_
  refine forall_field (sane_str fun _ _ h => ⟨h.mtlsEndpointAliases, h.unknown⟩) ?_
  refine forall_field (sane_str fun _ _ h => ⟨h.mtlsEndpointAliases, h.unknown⟩) ?_
  refine forall_field (sane_str fun _ _ h => ⟨h.mtlsEndpointAliases, h.unknown⟩) ?_
  refine forall_field (sane_str fun _ _ h => ⟨h.mtlsEndpointAliases, h.unknown⟩) ?_
  refine forall_field (sane_str fun _ _ h => ⟨h.mtlsEndpointAliases, h.unknown⟩) ?_
  refine forall_field (sane_str fun _ _ h => ⟨h.mtlsEndpointAliases, h.unknown⟩) ?_
  refine forall_field (sane_str fun _ _ h => ⟨h.mtlsEndpointAliases, h.unknown⟩) ?_
  refine forall_field (sane_bool fun _ _ h => ⟨h.mtlsEndpointAliases, h.unknown⟩) ?_
  refine forall_field (sane_bool fun _ _ h => ⟨h.mtlsEndpointAliases, h.unknown⟩) ?_
  refine forall_field (sane_bool fun _ _ h => ⟨h.mtlsEndpointAliases, h.unknown⟩) ?_
  refine forall_field (sane_bool fun _ _ h => ⟨h.mtlsEndpointAliases, h.unknown⟩) ?_
  refine forall_field (sane_str fun _ _ h => ⟨h.mtlsEndpointAliases, h.unknown⟩) ?_
  refine forall_field (sane_str fun _ _ h => ⟨h.mtlsEndpointAliases, h.unknown⟩) ?_
  refine forall_field (sane_str fun _ _ h => ⟨h.mtlsEndpointAliases, h.unknown⟩) ?_
  refine forall_field (sane_str fun _ _ h => ⟨h.mtlsEndpointAliases, h.unknown⟩) ?_
  refine forall_field (sane_str fun _ _ h => ⟨h.mtlsEndpointAliases, h.unknown⟩) ?_
  refine forall_field (sane_str fun _ _ h => ⟨h.mtlsEndpointAliases, h.unknown⟩) ?_
  refine forall_field (sane_str fun _ _ h => ⟨h.mtlsEndpointAliases, h.unknown⟩) ?_
  refine forall_field (sane_str fun _ _ h => ⟨h.mtlsEndpointAliases, h.unknown⟩) ?_
  refine forall_field (sane_str fun _ _ h => ⟨h.mtlsEndpointAliases, h.unknown⟩) ?_
  refine forall_field (sane_str fun _ _ h => ⟨h.mtlsEndpointAliases, h.unknown⟩) ?_
  refine forall_field (sane_str fun _ _ h => ⟨h.mtlsEndpointAliases, h.unknown⟩) ?_
  refine forall_field (sane_msg MTLSEndpoints.sane (fun m h => ok_getD h.mtlsEndpointAliases MTLSEndpoints.Ok.empty) fun s m h hs => ⟨ok_some hs, h.unknown⟩) ?_
  refine forall_field (sane_str fun _ _ h => ⟨h.mtlsEndpointAliases, h.unknown⟩) ?_
  refine forall_field (sane_str fun _ _ h => ⟨h.mtlsEndpointAliases, h.unknown⟩) ?_
  refine forall_field (sane_bool fun _ _ h => ⟨h.mtlsEndpointAliases, h.unknown⟩) ?_
  refine forall_field (sane_str fun _ _ h => ⟨h.mtlsEndpointAliases, h.unknown⟩) ?_
  refine forall_field (sane_str fun _ _ h => ⟨h.mtlsEndpointAliases, h.unknown⟩) ?_
  refine forall_field (sane_str fun _ _ h => ⟨h.mtlsEndpointAliases, h.unknown⟩) ?_
  refine forall_field (sane_bool fun _ _ h => ⟨h.mtlsEndpointAliases, h.unknown⟩) ?_
  refine forall_field (sane_str fun _ _ h => ⟨h.mtlsEndpointAliases, h.unknown⟩) ?_
  refine forall_field (sane_str fun _ _ h => ⟨h.mtlsEndpointAliases, h.unknown⟩) ?_
  refine forall_field (sane_str fun _ _ h => ⟨h.mtlsEndpointAliases, h.unknown⟩) ?_
  refine forall_field (sane_str fun _ _ h => ⟨h.mtlsEndpointAliases, h.unknown⟩) ?_
  exact forall_none

/-! #### `AuthorizationRequest` -/

/-- The kept records are records of other fields. -/
structure AuthorizationRequest.Ok (m : AuthorizationRequest) : Prop where
  unknown : Unknowns (AuthorizationRequest.fields.map Prod.fst) m.unknown

theorem AuthorizationRequest.Ok.empty : AuthorizationRequest.Ok {} := ⟨.nil⟩

theorem AuthorizationRequest.chain (x : AuthorizationRequest) (h : x.Ok) : Chain AuthorizationRequest.fields AuthorizationRequest.keep x.parts {} x := by
  cases x
  refine chain_cons (partOk_str (num := 1) (set := fun s m => { m with scope := s }) rfl rfl (by decide) (by decide) rfl) ?_
  refine chain_cons (partOk_str (num := 2) (set := fun s m => { m with responseType := s }) rfl rfl (by decide) (by decide) rfl) ?_
  refine chain_cons (partOk_str (num := 3) (set := fun s m => { m with clientId := s }) rfl rfl (by decide) (by decide) rfl) ?_
  refine chain_cons (partOk_str (num := 4) (set := fun s m => { m with redirectUri := s }) rfl rfl (by decide) (by decide) rfl) ?_
  refine chain_cons (partOk_str (num := 5) (set := fun s m => { m with state := s }) rfl rfl (by decide) (by decide) rfl) ?_
  refine chain_cons (partOk_optStr (num := 6) (set := fun s m => { m with responseMode := s }) rfl rfl (by decide) (by decide) rfl) ?_
  refine chain_cons (partOk_str (num := 7) (set := fun s m => { m with nonce := s }) rfl rfl (by decide) (by decide) rfl) ?_
  refine chain_cons (partOk_optStr (num := 8) (set := fun s m => { m with display := s }) rfl rfl (by decide) (by decide) rfl) ?_
  refine chain_cons (partOk_optStr (num := 9) (set := fun s m => { m with prompt := s }) rfl rfl (by decide) (by decide) rfl) ?_
  refine chain_cons (partOk_optVarint (num := 10) (set := fun s m => { m with maxAge := s }) rfl rfl (by decide) (by decide) rfl) ?_
  refine chain_cons (partOk_optStr (num := 11) (set := fun s m => { m with uiLocales := s }) rfl rfl (by decide) (by decide) rfl) ?_
  refine chain_cons (partOk_optStr (num := 12) (set := fun s m => { m with idTokenHint := s }) rfl rfl (by decide) (by decide) rfl) ?_
  refine chain_cons (partOk_optStr (num := 13) (set := fun s m => { m with acrValues := s }) rfl rfl (by decide) (by decide) rfl) ?_
  refine chain_cons (partOk_optStr (num := 14) (set := fun s m => { m with request := s }) rfl rfl (by decide) (by decide) rfl) ?_
  refine chain_cons (partOk_optStr (num := 15) (set := fun s m => { m with requestUri := s }) rfl rfl (by decide) (by decide) rfl) ?_
  refine chain_cons (partOk_str (num := 16) (set := fun s m => { m with codeChallenge := s }) rfl rfl (by decide) (by decide) rfl) ?_
  refine chain_cons (partOk_str (num := 17) (set := fun s m => { m with codeChallengeMethod := s }) rfl rfl (by decide) (by decide) rfl) ?_
  refine chain_cons (partOk_str (num := 18) (set := fun s m => { m with audience := s }) rfl rfl (by decide) (by decide) rfl) ?_
  refine chain_cons (partOk_optStr (num := 19) (set := fun s m => { m with dpopProof := s }) rfl rfl (by decide) (by decide) rfl) ?_
  refine chain_cons (partOk_repStr (num := 20) (get := fun m => m.resource) (set := fun s m => { m with resource := s }) rfl rfl (by decide) (by decide) (fun _ _ => rfl)
    (fun _ _ _ => rfl) (fun _ => rfl) rfl) ?_
  refine chain_cons (partOk_optStr (num := 21) (set := fun s m => { m with iss := s }) rfl rfl (by decide) (by decide) rfl) ?_
  refine chain_cons (partOk_optStr (num := 22) (set := fun s m => { m with loginHintToken := s }) rfl rfl (by decide) (by decide) rfl) ?_
  refine chain_cons (partOk_optStr (num := 23) (set := fun s m => { m with loginHint := s }) rfl rfl (by decide) (by decide) rfl) ?_
  refine chain_cons (partOk_raw h.unknown (fun _ _ => by simp [AuthorizationRequest.keep]) rfl) ?_
  exact chain_nil _

theorem AuthorizationRequest.dec (x : AuthorizationRequest) (h : x.Ok) :
    ∃ e, EncAll x.parts e ∧ (e.length < 2 ^ 63 → AuthorizationRequest.unmarshal {} e = .ok x) :=
  dec_of_chain (x.chain h)

theorem AuthorizationRequest.sane : SaneDec AuthorizationRequest.Ok AuthorizationRequest.unmarshal := by
  refine saneDec ?_ fun u m h hu => ⟨.snoc h.unknown hu⟩
  refine forall_field (sane_str fun _ _ h => ⟨h.unknown⟩) ?_
  refine forall_field (sane_str fun _ _ h => ⟨h.unknown⟩) ?_
  refine forall_field (sane_str fun _ _ h => ⟨h.unknown⟩) ?_
  refine forall_field (sane_str fun _ _ h => ⟨h.unknown⟩) ?_
  refine forall_field (sane_str fun _ _ h => ⟨h.unknown⟩) ?_
  refine forall_field (sane_str fun _ _ h => ⟨h.unknown⟩) ?_
  refine forall_field (sane_str fun _ _ h => ⟨h.unknown⟩) ?_
  refine forall_field (sane_str fun _ _ h => ⟨h.unknown⟩) ?_
  refine forall_field (sane_str fun _ _ h => ⟨h.unknown⟩) ?_
  refine forall_field (sane_varint fun _ _ h => ⟨h.unknown⟩) ?_
  refine forall_field (sane_str fun _ _ h => ⟨h.unknown⟩) ?_
  refine forall_field (sane_str fun _ _ h => ⟨h.unknown⟩) ?_
  refine forall_field (sane_str fun _ _ h => ⟨h.unknown⟩) ?_
  refine forall_field (sane_str fun _ _ h => ⟨h.unknown⟩) ?_
  refine forall_field (sane_str fun _ _ h => ⟨h.unknown⟩) ?_
  refine forall_field (sane_str fun _ _ h => ⟨h.unknown⟩) ?_
  refine forall_field (sane_str fun _ _ h => ⟨h.unknown⟩) ?_
  refine forall_field (sane_str fun _ _ h => ⟨h.unknown⟩) ?_
  refine forall_field (sane_str fun _ _ h => ⟨h.unknown⟩) ?_
  refine forall_field (sane_str fun _ _ h => ⟨h.unknown⟩) ?_
  refine forall_field (sane_str fun _ _ h => ⟨h.unknown⟩) ?_
  refine forall_field (sane_str fun _ _ h => ⟨h.unknown⟩) ?_
  refine forall_field (sane_str fun _ _ h => ⟨h.unknown⟩) ?_
  exact forall_none

/-! #### `AuthorizeRequest` -/

/-- The kept records are records of other fields. -/
structure AuthorizeRequest.Ok (m : AuthorizeRequest) : Prop where
  client : ∀ x, m.client = some x → x.Ok
  request : ∀ x, m.request = some x → x.Ok
  unknown : Unknowns (AuthorizeRequest.fields.map Prod.fst) m.unknown

theorem AuthorizeRequest.Ok.empty : AuthorizeRequest.Ok {} := ⟨ok_none, ok_none, .nil⟩

theorem AuthorizeRequest.chain (x : AuthorizeRequest) (h : x.Ok) : Chain AuthorizeRequest.fields AuthorizeRequest.keep x.parts {} x := by
  cases x
  refine chain_cons (partOk_str (num := 1) (set := fun s m => { m with issuer := s }) rfl rfl (by decide) (by decide) rfl) ?_
  refine chain_cons (partOk_optMsg (num := 2) (get := fun m => m.client.getD {}) (set := fun s m => { m with client := s }) rfl rfl (by decide) (by decide) rfl
    (fun s hs => s.dec (h.client s hs))) ?_
  refine chain_cons (partOk_str (num := 3) (set := fun s m => { m with subject := s }) rfl rfl (by decide) (by decide) rfl) ?_
  refine chain_cons (partOk_optMsg (num := 4) (get := fun m => m.request.getD {}) (set := fun s m => { m with request := s }) rfl rfl (by decide) (by decide) rfl
    (fun s hs => s.dec (h.request s hs))) ?_
  refine chain_cons (partOk_raw h.unknown (fun _ _ => by simp [AuthorizeRequest.keep]) rfl) ?_
  exact chain_nil _

theorem AuthorizeRequest.dec (x : AuthorizeRequest) (h : x.Ok) :
    ∃ e, EncAll x.parts e ∧ (e.length < 2 ^ 63 → AuthorizeRequest.unmarshal {} e = .ok x) :=
  dec_of_chain (x.chain h)

theorem AuthorizeRequest.sane : SaneDec AuthorizeRequest.Ok AuthorizeRequest.unmarshal := by
  refine saneDec ?_ fun u m h hu => ⟨h.client, h.request, .snoc h.unknown hu⟩
  refine forall_field (sane_str fun _ _ h => ⟨h.client, h.request, h.unknown⟩) ?_
  refine forall_field (sane_msg Client.sane (fun m h => ok_getD h.client Client.Ok.empty) fun s m h hs => ⟨ok_some hs, h.request, h.unknown⟩) ?_
  refine forall_field (sane_str fun _ _ h => ⟨h.client, h.request, h.unknown⟩) ?_
  refine forall_field (sane_msg AuthorizationRequest.sane (fun m h => ok_getD h.request AuthorizationRequest.Ok.empty) fun s m h hs => ⟨h.client, ok_some hs, h.unknown⟩) ?_
  exact forall_none

/-! #### `AuthorizeResponse` -/

/-- The kept records are records of other fields. -/
structure AuthorizeResponse.Ok (m : AuthorizeResponse) : Prop where
  error : ∀ x, m.error = some x → x.Ok
  unknown : Unknowns (AuthorizeResponse.fields.map Prod.fst) m.unknown

theorem AuthorizeResponse.Ok.empty : AuthorizeResponse.Ok {} := ⟨ok_none, .nil⟩

theorem AuthorizeResponse.chain (x : AuthorizeResponse) (h : x.Ok) : Chain AuthorizeResponse.fields AuthorizeResponse.keep x.parts {} x := by
  cases x
  refine chain_cons (partOk_optMsg (num := 1) (get := fun m => m.error.getD {}) (set := fun s m => { m with error := s }) rfl rfl (by decide) (by decide) rfl
    (fun s hs => s.dec (h.error s hs))) ?_
  refine chain_cons (partOk_str (num := 2) (set := fun s m => { m with code := s }) rfl rfl (by decide) (by decide) rfl) ?_
  refine chain_cons (partOk_str (num := 3) (set := fun s m => { m with state := s }) rfl rfl (by decide) (by decide) rfl) ?_
  refine chain_cons (partOk_str (num := 4) (set := fun s m => { m with redirectUri := s }) rfl rfl (by decide) (by decide) rfl) ?_
  refine chain_cons (partOk_str (num := 5) (set := fun s m => { m with clientId := s }) rfl rfl (by decide) (by decide) rfl) ?_
  refine chain_cons (partOk_fix (num := 6) (set := fun s m => { m with expiresIn := s }) rfl rfl (by decide) (by decide) rfl) ?_
  refine chain_cons (partOk_str (num := 7) (set := fun s m => { m with issuer := s }) rfl rfl (by decide) (by decide) rfl) ?_
  refine chain_cons (partOk_str (num := 8) (set := fun s m => { m with responseMode := s }) rfl rfl (by decide) (by decide) rfl) ?_
  refine chain_cons (partOk_raw h.unknown (fun _ _ => by simp [AuthorizeResponse.keep]) rfl) ?_
  exact chain_nil _

theorem AuthorizeResponse.dec (x : AuthorizeResponse) (h : x.Ok) :
    ∃ e, EncAll x.parts e ∧ (e.length < 2 ^ 63 → AuthorizeResponse.unmarshal {} e = .ok x) :=
  dec_of_chain (x.chain h)

theorem AuthorizeResponse.sane : SaneDec AuthorizeResponse.Ok AuthorizeResponse.unmarshal := by
  refine saneDec ?_ fun u m h hu => ⟨h.error, .snoc h.unknown hu⟩
  refine forall_field (sane_msg Error.sane (fun m h => ok_getD h.error Error.Ok.empty) fun s m h hs => ⟨ok_some hs, h.unknown⟩) ?_
  refine forall_field (sane_str fun _ _ h => ⟨h.error, h.unknown⟩) ?_
  refine forall_field (sane_str fun _ _ h => ⟨h.error, h.unknown⟩) ?_
  refine forall_field (sane_str fun _ _ h => ⟨h.error, h.unknown⟩) ?_
  refine forall_field (sane_str fun _ _ h => ⟨h.error, h.unknown⟩) ?_
  refine forall_field (sane_fix fun _ _ h => ⟨h.error, h.unknown⟩) ?_
  refine forall_field (sane_str fun _ _ h => ⟨h.error, h.unknown⟩) ?_
  refine forall_field (sane_str fun _ _ h => ⟨h.error, h.unknown⟩) ?_
  exact forall_none

/-! #### `TokenConfirmation` -/

/-- The kept records are records of other fields. -/
structure TokenConfirmation.Ok (m : TokenConfirmation) : Prop where
  unknown : Unknowns (TokenConfirmation.fields.map Prod.fst) m.unknown

theorem TokenConfirmation.Ok.empty : TokenConfirmation.Ok {} := ⟨.nil⟩

theorem TokenConfirmation.chain (x : TokenConfirmation) (h : x.Ok) : Chain TokenConfirmation.fields TokenConfirmation.keep x.parts {} x := by
  cases x
  refine chain_cons (partOk_str (num := 1) (set := fun s m => { m with jkt := s }) rfl rfl (by decide) (by decide) rfl) ?_
  refine chain_cons (partOk_raw h.unknown (fun _ _ => by simp [TokenConfirmation.keep]) rfl) ?_
  exact chain_nil _

theorem TokenConfirmation.dec (x : TokenConfirmation) (h : x.Ok) :
    ∃ e, EncAll x.parts e ∧ (e.length < 2 ^ 63 → TokenConfirmation.unmarshal {} e = .ok x) :=
  dec_of_chain (x.chain h)

theorem TokenConfirmation.sane : SaneDec TokenConfirmation.Ok TokenConfirmation.unmarshal := by
  refine saneDec ?_ fun u m h hu => ⟨.snoc h.unknown hu⟩
  refine forall_field (sane_str fun _ _ h => ⟨h.unknown⟩) ?_
  exact forall_none

/-! #### `RegistrationRequest` -/

/-- The kept records are records of other fields. -/
structure RegistrationRequest.Ok (m : RegistrationRequest) : Prop where
  client : ∀ x, m.client = some x → x.Ok
  request : ∀ x, m.request = some x → x.Ok
  confirmation : ∀ x, m.confirmation = some x → x.Ok
  unknown : Unknowns (RegistrationRequest.fields.map Prod.fst) m.unknown

theorem RegistrationRequest.Ok.empty : RegistrationRequest.Ok {} := ⟨ok_none, ok_none, ok_none, .nil⟩

theorem RegistrationRequest.chain (x : RegistrationRequest) (h : x.Ok) : Chain RegistrationRequest.fields RegistrationRequest.keep x.parts {} x := by
  cases x
  refine chain_cons (partOk_str (num := 1) (set := fun s m => { m with issuer := s }) rfl rfl (by decide) (by decide) rfl) ?_
  refine chain_cons (partOk_optMsg (num := 2) (get := fun m => m.client.getD {}) (set := fun s m => { m with client := s }) rfl rfl (by decide) (by decide) rfl
    (fun s hs => s.dec (h.client s hs))) ?_
  refine chain_cons (partOk_optMsg (num := 3) (get := fun m => m.request.getD {}) (set := fun s m => { m with request := s }) rfl rfl (by decide) (by decide) rfl
    (fun s hs => s.dec (h.request s hs))) ?_
  refine chain_cons (partOk_optMsg (num := 4) (get := fun m => m.confirmation.getD {}) (set := fun s m => { m with confirmation := s }) rfl rfl (by decide) (by decide) rfl
    (fun s hs => s.dec (h.confirmation s hs))) ?_
  refine chain_cons (partOk_raw h.unknown (fun _ _ => by simp [RegistrationRequest.keep]) rfl) ?_
  exact chain_nil _

theorem RegistrationRequest.dec (x : RegistrationRequest) (h : x.Ok) :
    ∃ e, EncAll x.parts e ∧ (e.length < 2 ^ 63 → RegistrationRequest.unmarshal {} e = .ok x) :=
  dec_of_chain (x.chain h)

theorem RegistrationRequest.sane : SaneDec RegistrationRequest.Ok RegistrationRequest.unmarshal := by
  refine saneDec ?_ fun u m h hu => ⟨h.client, h.request, h.confirmation, .snoc h.unknown hu⟩
  refine forall_field (sane_str fun _ _ h => ⟨h.client, h.request, h.confirmation, h.unknown⟩) ?_
  refine forall_field (sane_msg Client.sane (fun m h => ok_getD h.client Client.Ok.empty) fun s m h hs => ⟨ok_some hs, h.request, h.confirmation, h.unknown⟩) ?_
  refine forall_field (sane_msg AuthorizationRequest.sane (fun m h => ok_getD h.request AuthorizationRequest.Ok.empty) fun s m h hs => ⟨h.client, ok_some hs, h.confirmation, h.unknown⟩) ?_
  refine forall_field (sane_msg TokenConfirmation.sane (fun m h => ok_getD h.confirmation TokenConfirmation.Ok.empty) fun s m h hs => ⟨h.client, h.request, ok_some hs, h.unknown⟩) ?_
  exact forall_none

/-! #### `RegistrationResponse` -/

/-- The kept records are records of other fields. -/
structure RegistrationResponse.Ok (m : RegistrationResponse) : Prop where
  error : ∀ x, m.error = some x → x.Ok
  unknown : Unknowns (RegistrationResponse.fields.map Prod.fst) m.unknown

theorem RegistrationResponse.Ok.empty : RegistrationResponse.Ok {} := ⟨ok_none, .nil⟩

theorem RegistrationResponse.chain (x : RegistrationResponse) (h : x.Ok) : Chain RegistrationResponse.fields RegistrationResponse.keep x.parts {} x := by
  cases x
  refine chain_cons (partOk_optMsg (num := 1) (get := fun m => m.error.getD {}) (set := fun s m => { m with error := s }) rfl rfl (by decide) (by decide) rfl
    (fun s hs => s.dec (h.error s hs))) ?_
  refine chain_cons (partOk_str (num := 2) (set := fun s m => { m with requestUri := s }) rfl rfl (by decide) (by decide) rfl) ?_
  refine chain_cons (partOk_fix (num := 3) (set := fun s m => { m with expiresIn := s }) rfl rfl (by decide) (by decide) rfl) ?_
  refine chain_cons (partOk_str (num := 4) (set := fun s m => { m with issuer := s }) rfl rfl (by decide) (by decide) rfl) ?_
  refine chain_cons (partOk_raw h.unknown (fun _ _ => by simp [RegistrationResponse.keep]) rfl) ?_
  exact chain_nil _

theorem RegistrationResponse.dec (x : RegistrationResponse) (h : x.Ok) :
    ∃ e, EncAll x.parts e ∧ (e.length < 2 ^ 63 → RegistrationResponse.unmarshal {} e = .ok x) :=
  dec_of_chain (x.chain h)

theorem RegistrationResponse.sane : SaneDec RegistrationResponse.Ok RegistrationResponse.unmarshal := by
  refine saneDec ?_ fun u m h hu => ⟨h.error, .snoc h.unknown hu⟩
  refine forall_field (sane_msg Error.sane (fun m h => ok_getD h.error Error.Ok.empty) fun s m h hs => ⟨ok_some hs, h.unknown⟩) ?_
  refine forall_field (sane_str fun _ _ h => ⟨h.error, h.unknown⟩) ?_
  refine forall_field (sane_fix fun _ _ h => ⟨h.error, h.unknown⟩) ?_
  refine forall_field (sane_str fun _ _ h => ⟨h.error, h.unknown⟩) ?_
  exact forall_none

/-! #### `TokenMeta` -/

/-- The kept records are records of other fields. -/
structure TokenMeta.Ok (m : TokenMeta) : Prop where
  unknown : Unknowns (TokenMeta.fields.map Prod.fst) m.unknown

theorem TokenMeta.Ok.empty : TokenMeta.Ok {} := ⟨.nil⟩

theorem TokenMeta.chain (x : TokenMeta) (h : x.Ok) : Chain TokenMeta.fields TokenMeta.keep x.parts {} x := by
  cases x
  refine chain_cons (partOk_str (num := 1) (set := fun s m => { m with issuer := s }) rfl rfl (by decide) (by decide) rfl) ?_
  refine chain_cons (partOk_str (num := 2) (set := fun s m => { m with subject := s }) rfl rfl (by decide) (by decide) rfl) ?_
  refine chain_cons (partOk_fix (num := 3) (set := fun s m => { m with issuedAt := s }) rfl rfl (by decide) (by decide) rfl) ?_
  refine chain_cons (partOk_fix (num := 4) (set := fun s m => { m with notBefore := s }) rfl rfl (by decide) (by decide) rfl) ?_
  refine chain_cons (partOk_fix (num := 5) (set := fun s m => { m with expiresAt := s }) rfl rfl (by decide) (by decide) rfl) ?_
  refine chain_cons (partOk_str (num := 6) (set := fun s m => { m with clientId := s }) rfl rfl (by decide) (by decide) rfl) ?_
  refine chain_cons (partOk_str (num := 7) (set := fun s m => { m with scope := s }) rfl rfl (by decide) (by decide) rfl) ?_
  refine chain_cons (partOk_str (num := 8) (set := fun s m => { m with audience := s }) rfl rfl (by decide) (by decide) rfl) ?_
  refine chain_cons (partOk_optStr (num := 9) (set := fun s m => { m with acr := s }) rfl rfl (by decide) (by decide) rfl) ?_
  refine chain_cons (partOk_optFix (num := 10) (set := fun s m => { m with authTime := s }) rfl rfl (by decide) (by decide) rfl) ?_
  refine chain_cons (partOk_raw h.unknown (fun _ _ => by simp [TokenMeta.keep]) rfl) ?_
  exact chain_nil _

theorem TokenMeta.dec (x : TokenMeta) (h : x.Ok) :
    ∃ e, EncAll x.parts e ∧ (e.length < 2 ^ 63 → TokenMeta.unmarshal {} e = .ok x) :=
  dec_of_chain (x.chain h)

theorem TokenMeta.sane : SaneDec TokenMeta.Ok TokenMeta.unmarshal := by
  refine saneDec ?_ fun u m h hu => ⟨.snoc h.unknown hu⟩
  refine forall_field (sane_str fun _ _ h => ⟨h.unknown⟩) ?_
  refine forall_field (sane_str fun _ _ h => ⟨h.unknown⟩) ?_
  refine forall_field (sane_fix fun _ _ h => ⟨h.unknown⟩) ?_
  refine forall_field (sane_fix fun _ _ h => ⟨h.unknown⟩) ?_
  refine forall_field (sane_fix fun _ _ h => ⟨h.unknown⟩) ?_
  refine forall_field (sane_str fun _ _ h => ⟨h.unknown⟩) ?_
  refine forall_field (sane_str fun _ _ h => ⟨h.unknown⟩) ?_
  refine forall_field (sane_str fun _ _ h => ⟨h.unknown⟩) ?_
  refine forall_field (sane_str fun _ _ h => ⟨h.unknown⟩) ?_
  refine forall_field (sane_fix fun _ _ h => ⟨h.unknown⟩) ?_
  exact forall_none

/-! #### `Actor` -/

/-- How deep actors are nested. -/
def Actor.height : Actor → Nat
  | ⟨_, _, _, none, _⟩ => 0
  | ⟨_, _, _, some a, _⟩ => a.height + 1

/-- The kept records are records of other fields. -/
inductive Actor.Ok : Actor → Prop
  | mk {m : Actor} (act : ∀ x, m.act = some x → x.Ok) (unknown : Unknowns [1, 2, 3, 4] m.unknown) : m.Ok

theorem Actor.Ok.act {m : Actor} : m.Ok → ∀ x, m.act = some x → x.Ok
  | ⟨h, _⟩ => h

theorem Actor.Ok.unknown {m : Actor} : m.Ok → Unknowns [1, 2, 3, 4] m.unknown
  | ⟨_, h⟩ => h

theorem Actor.Ok.empty : Actor.Ok {} := ⟨ok_none, .nil⟩

theorem Actor.parts_eq (issuer subject clientId : Str) (act : Option Actor) (u : Str) :
    Actor.parts ⟨issuer, subject, clientId, act, u⟩ =
      [.str [10] issuer, .str [18] subject, .str [26] clientId, .optMsg [34] (act.map Actor.parts), .raw u] := by
  cases act <;> simp [Actor.parts, Actor.optParts]

theorem Actor.height_le : (x : Actor) → x.height ≤ sizeAll x.parts
  | ⟨issuer, subject, clientId, none, u⟩ => by simp [Actor.height]
  | ⟨issuer, subject, clientId, some a, u⟩ => by
    have := Actor.height_le a
    rw [Actor.parts_eq]
    simp only [Actor.height, sizeAll, Option.map_some, Part.optMsg, Part.msg, List.length_cons, List.length_nil]
    omega

theorem Actor.chain (n : Nat) (x : Actor) (h : x.Ok) (hn : x.height ≤ n) :
    Chain (Actor.fields (Actor.decode n)) Actor.keep x.parts {} x := by
  induction n generalizing x with
  | zero =>
    obtain ⟨issuer, subject, clientId, act, u⟩ := x
    cases act with
    | some a => simp [Actor.height] at hn
    | none =>
      rw [Actor.parts_eq]
      refine chain_cons (partOk_str (num := 1) (set := fun s m => { m with issuer := s }) rfl rfl (by decide) (by decide) rfl) ?_
      refine chain_cons (partOk_str (num := 2) (set := fun s m => { m with subject := s }) rfl rfl (by decide) (by decide) rfl) ?_
      refine chain_cons (partOk_str (num := 3) (set := fun s m => { m with clientId := s }) rfl rfl (by decide) (by decide) rfl) ?_
      refine chain_cons (p := .nil) ⟨[], enc_nil, fun _ => adv_nil _⟩ ?_
      refine chain_cons (partOk_raw h.unknown (fun _ _ => by simp [Actor.keep]) rfl) ?_
      exact chain_nil _
  | succ n ih =>
    obtain ⟨issuer, subject, clientId, act, u⟩ := x
    rw [Actor.parts_eq]
    refine chain_cons (partOk_str (num := 1) (set := fun s m => { m with issuer := s }) rfl rfl (by decide) (by decide) rfl) ?_
    refine chain_cons (partOk_str (num := 2) (set := fun s m => { m with subject := s }) rfl rfl (by decide) (by decide) rfl) ?_
    refine chain_cons (partOk_str (num := 3) (set := fun s m => { m with clientId := s }) rfl rfl (by decide) (by decide) rfl) ?_
    refine chain_cons (partOk_optMsg (num := 4) (get := fun m => m.act.getD {}) (set := fun s m => { m with act := s }) rfl rfl
      (by decide) (by decide) rfl (fun s hs => dec_of_chain (ih s (h.act s hs) (by
        subst hs
        simp only [Actor.height] at hn
        omega)))) ?_
    refine chain_cons (partOk_raw h.unknown (fun _ _ => by simp [Actor.keep]) rfl) ?_
    exact chain_nil _

theorem Actor.dec (x : Actor) (h : x.Ok) :
    ∃ e, EncAll x.parts e ∧ (e.length < 2 ^ 63 → Actor.unmarshal {} e = .ok x) := by
  obtain ⟨e, he, _⟩ := x.chain _ h (Nat.le_refl _)
  have hs := encAll_size he
  have hh := x.height_le
  obtain ⟨e', he', hd⟩ := dec_of_chain (x.chain e.length h (by omega))
  obtain rfl : e = e' := Option.some.inj ((marshal_eq he).symm.trans (marshal_eq he'))
  exact ⟨e, he, hd⟩

theorem Actor.sane_decode (n : Nat) : SaneDec Actor.Ok (Actor.decode n) := by
  induction n with
  | zero => exact ⟨fun _ _ => by simp [Actor.decode], fun _ _ _ _ h => by simp [Actor.decode] at h⟩
  | succ n ih =>
    refine saneDec (fields := Actor.fields (Actor.decode n)) ?_ fun u m h hu => ⟨h.act, .snoc h.unknown hu⟩
    refine forall_field (sane_str fun _ _ h => ⟨h.act, h.unknown⟩) ?_
    refine forall_field (sane_str fun _ _ h => ⟨h.act, h.unknown⟩) ?_
    refine forall_field (sane_str fun _ _ h => ⟨h.act, h.unknown⟩) ?_
    refine forall_field (sane_msg ih (fun m h => ok_getD h.act Actor.Ok.empty) fun s m h hs => ⟨ok_some hs, h.unknown⟩) ?_
    exact forall_none

theorem Actor.sane : SaneDec Actor.Ok Actor.unmarshal :=
  ⟨fun m d => (Actor.sane_decode _).noPanic m d, fun m d m' h h' => (Actor.sane_decode _).keeps m d m' h h'⟩

/-! #### `Token` -/

/-- The kept records are records of other fields. -/
structure Token.Ok (m : Token) : Prop where
  metadata : ∀ x, m.metadata = some x → x.Ok
  confirmation : ∀ x, m.confirmation = some x → x.Ok
  actor : ∀ x ∈ m.actor, x.Ok
  mayAct : ∀ x ∈ m.mayAct, x.Ok
  unknown : Unknowns (Token.fields.map Prod.fst) m.unknown

theorem Token.Ok.empty : Token.Ok {} := ⟨ok_none, ok_none, ok_nil, ok_nil, .nil⟩

theorem Token.chain (x : Token) (h : x.Ok) : Chain Token.fields Token.keep x.parts {} x := by
  cases x
  refine chain_cons (partOk_str (num := 1) (set := fun s m => { m with issuer := s }) rfl rfl (by decide) (by decide) rfl) ?_
  refine chain_cons (partOk_enum (num := 2) (set := fun s m => { m with tokenType := s }) rfl rfl (by decide) (by decide) rfl) ?_
  refine chain_cons (partOk_str (num := 3) (set := fun s m => { m with tokenId := s }) rfl rfl (by decide) (by decide) rfl) ?_
  refine chain_cons (partOk_optMsg (num := 4) (get := fun m => m.metadata.getD {}) (set := fun s m => { m with metadata := s }) rfl rfl (by decide) (by decide) rfl
    (fun s hs => s.dec (h.metadata s hs))) ?_
  refine chain_cons (partOk_enum (num := 5) (set := fun s m => { m with status := s }) rfl rfl (by decide) (by decide) rfl) ?_
  refine chain_cons (partOk_str (num := 6) (set := fun s m => { m with value := s }) rfl rfl (by decide) (by decide) rfl) ?_
  refine chain_cons (partOk_optStr (num := 7) (set := fun s m => { m with phantom := s }) rfl rfl (by decide) (by decide) rfl) ?_
  refine chain_cons (partOk_optMsg (num := 8) (get := fun m => m.confirmation.getD {}) (set := fun s m => { m with confirmation := s }) rfl rfl (by decide) (by decide) rfl
    (fun s hs => s.dec (h.confirmation s hs))) ?_
  refine chain_cons (partOk_repMsg (num := 9) (get := fun m => m.actor) (set := fun s m => { m with actor := s }) rfl rfl (by decide) (by decide) (fun _ _ => rfl)
    (fun _ _ _ => rfl) (fun _ => rfl) rfl (fun s hs => s.dec (h.actor s hs))) ?_
  refine chain_cons (partOk_repMsg (num := 10) (get := fun m => m.mayAct) (set := fun s m => { m with mayAct := s }) rfl rfl (by decide) (by decide) (fun _ _ => rfl)
    (fun _ _ _ => rfl) (fun _ => rfl) rfl (fun s hs => s.dec (h.mayAct s hs))) ?_
  refine chain_cons (partOk_raw h.unknown (fun _ _ => by simp [Token.keep]) rfl) ?_
  exact chain_nil _

theorem Token.dec (x : Token) (h : x.Ok) :
    ∃ e, EncAll x.parts e ∧ (e.length < 2 ^ 63 → Token.unmarshal {} e = .ok x) :=
  dec_of_chain (x.chain h)

theorem Token.sane : SaneDec Token.Ok Token.unmarshal := by
  refine saneDec ?_ fun u m h hu => ⟨h.metadata, h.confirmation, h.actor, h.mayAct, .snoc h.unknown hu⟩
  refine forall_field (sane_str fun _ _ h => ⟨h.metadata, h.confirmation, h.actor, h.mayAct, h.unknown⟩) ?_
  refine forall_field (sane_enum fun _ _ h => ⟨h.metadata, h.confirmation, h.actor, h.mayAct, h.unknown⟩) ?_
  refine forall_field (sane_str fun _ _ h => ⟨h.metadata, h.confirmation, h.actor, h.mayAct, h.unknown⟩) ?_
  refine forall_field (sane_msg TokenMeta.sane (fun m h => ok_getD h.metadata TokenMeta.Ok.empty) fun s m h hs => ⟨ok_some hs, h.confirmation, h.actor, h.mayAct, h.unknown⟩) ?_
  refine forall_field (sane_enum fun _ _ h => ⟨h.metadata, h.confirmation, h.actor, h.mayAct, h.unknown⟩) ?_
  refine forall_field (sane_str fun _ _ h => ⟨h.metadata, h.confirmation, h.actor, h.mayAct, h.unknown⟩) ?_
  refine forall_field (sane_str fun _ _ h => ⟨h.metadata, h.confirmation, h.actor, h.mayAct, h.unknown⟩) ?_
  refine forall_field (sane_msg TokenConfirmation.sane (fun m h => ok_getD h.confirmation TokenConfirmation.Ok.empty) fun s m h hs => ⟨h.metadata, ok_some hs, h.actor, h.mayAct, h.unknown⟩) ?_
  refine forall_field (sane_msg Actor.sane (fun _ _ => Actor.Ok.empty) fun s m h hs => ⟨h.metadata, h.confirmation, ok_snoc h.actor hs, h.mayAct, h.unknown⟩) ?_
  refine forall_field (sane_msg Actor.sane (fun _ _ => Actor.Ok.empty) fun s m h hs => ⟨h.metadata, h.confirmation, h.actor, ok_snoc h.mayAct hs, h.unknown⟩) ?_
  exact forall_none

/-! #### `TokenResponse` -/

/-- The kept records are records of other fields. -/
structure TokenResponse.Ok (m : TokenResponse) : Prop where
  error : ∀ x, m.error = some x → x.Ok
  accessToken : ∀ x, m.accessToken = some x → x.Ok
  refreshToken : ∀ x, m.refreshToken = some x → x.Ok
  idToken : ∀ x, m.idToken = some x → x.Ok
  unknown : Unknowns (TokenResponse.fields.map Prod.fst) m.unknown

theorem TokenResponse.Ok.empty : TokenResponse.Ok {} := ⟨ok_none, ok_none, ok_none, ok_none, .nil⟩

theorem TokenResponse.chain (x : TokenResponse) (h : x.Ok) : Chain TokenResponse.fields TokenResponse.keep x.parts {} x := by
  cases x
  refine chain_cons (partOk_optMsg (num := 1) (get := fun m => m.error.getD {}) (set := fun s m => { m with error := s }) rfl rfl (by decide) (by decide) rfl
    (fun s hs => s.dec (h.error s hs))) ?_
  refine chain_cons (partOk_optMsg (num := 2) (get := fun m => m.accessToken.getD {}) (set := fun s m => { m with accessToken := s }) rfl rfl (by decide) (by decide) rfl
    (fun s hs => s.dec (h.accessToken s hs))) ?_
  refine chain_cons (partOk_optMsg (num := 3) (get := fun m => m.refreshToken.getD {}) (set := fun s m => { m with refreshToken := s }) rfl rfl (by decide) (by decide) rfl
    (fun s hs => s.dec (h.refreshToken s hs))) ?_
  refine chain_cons (partOk_optMsg (num := 4) (get := fun m => m.idToken.getD {}) (set := fun s m => { m with idToken := s }) rfl rfl (by decide) (by decide) rfl
    (fun s hs => s.dec (h.idToken s hs))) ?_
  refine chain_cons (partOk_str (num := 5) (set := fun s m => { m with issuer := s }) rfl rfl (by decide) (by decide) rfl) ?_
  refine chain_cons (partOk_optStr (num := 6) (set := fun s m => { m with issuedTokenType := s }) rfl rfl (by decide) (by decide) rfl) ?_
  refine chain_cons (partOk_optStr (num := 7) (set := fun s m => { m with scope := s }) rfl rfl (by decide) (by decide) rfl) ?_
  refine chain_cons (partOk_raw h.unknown (fun _ _ => by simp [TokenResponse.keep]) rfl) ?_
  exact chain_nil _

theorem TokenResponse.dec (x : TokenResponse) (h : x.Ok) :
    ∃ e, EncAll x.parts e ∧ (e.length < 2 ^ 63 → TokenResponse.unmarshal {} e = .ok x) :=
  dec_of_chain (x.chain h)

theorem TokenResponse.sane : SaneDec TokenResponse.Ok TokenResponse.unmarshal := by
  refine saneDec ?_ fun u m h hu => ⟨h.error, h.accessToken, h.refreshToken, h.idToken, .snoc h.unknown hu⟩
  refine forall_field (sane_msg Error.sane (fun m h => ok_getD h.error Error.Ok.empty) fun s m h hs => ⟨ok_some hs, h.accessToken, h.refreshToken, h.idToken, h.unknown⟩) ?_
  refine forall_field (sane_msg Token.sane (fun m h => ok_getD h.accessToken Token.Ok.empty) fun s m h hs => ⟨h.error, ok_some hs, h.refreshToken, h.idToken, h.unknown⟩) ?_
  refine forall_field (sane_msg Token.sane (fun m h => ok_getD h.refreshToken Token.Ok.empty) fun s m h hs => ⟨h.error, h.accessToken, ok_some hs, h.idToken, h.unknown⟩) ?_
  refine forall_field (sane_msg Token.sane (fun m h => ok_getD h.idToken Token.Ok.empty) fun s m h hs => ⟨h.error, h.accessToken, h.refreshToken, ok_some hs, h.unknown⟩) ?_
  refine forall_field (sane_str fun _ _ h => ⟨h.error, h.accessToken, h.refreshToken, h.idToken, h.unknown⟩) ?_
  refine forall_field (sane_str fun _ _ h => ⟨h.error, h.accessToken, h.refreshToken, h.idToken, h.unknown⟩) ?_
  refine forall_field (sane_str fun _ _ h => ⟨h.error, h.accessToken, h.refreshToken, h.idToken, h.unknown⟩) ?_
  exact forall_none

/-! #### `DeviceAuthorizationRequest` -/

/-- The kept records are records of other fields. -/
structure DeviceAuthorizationRequest.Ok (m : DeviceAuthorizationRequest) : Prop where
  unknown : Unknowns (DeviceAuthorizationRequest.fields.map Prod.fst) m.unknown

theorem DeviceAuthorizationRequest.Ok.empty : DeviceAuthorizationRequest.Ok {} := ⟨.nil⟩

theorem DeviceAuthorizationRequest.chain (x : DeviceAuthorizationRequest) (h : x.Ok) : Chain DeviceAuthorizationRequest.fields DeviceAuthorizationRequest.keep x.parts {} x := by
  cases x
  refine chain_cons (partOk_str (num := 1) (set := fun s m => { m with issuer := s }) rfl rfl (by decide) (by decide) rfl) ?_
  refine chain_cons (partOk_str (num := 2) (set := fun s m => { m with clientId := s }) rfl rfl (by decide) (by decide) rfl) ?_
  refine chain_cons (partOk_optStr (num := 3) (set := fun s m => { m with scope := s }) rfl rfl (by decide) (by decide) rfl) ?_
  refine chain_cons (partOk_optStr (num := 4) (set := fun s m => { m with audience := s }) rfl rfl (by decide) (by decide) rfl) ?_
  refine chain_cons (partOk_raw h.unknown (fun _ _ => by simp [DeviceAuthorizationRequest.keep]) rfl) ?_
  exact chain_nil _

theorem DeviceAuthorizationRequest.dec (x : DeviceAuthorizationRequest) (h : x.Ok) :
    ∃ e, EncAll x.parts e ∧ (e.length < 2 ^ 63 → DeviceAuthorizationRequest.unmarshal {} e = .ok x) :=
  dec_of_chain (x.chain h)

theorem DeviceAuthorizationRequest.sane : SaneDec DeviceAuthorizationRequest.Ok DeviceAuthorizationRequest.unmarshal := by
  refine saneDec ?_ fun u m h hu => ⟨.snoc h.unknown hu⟩
  refine forall_field (sane_str fun _ _ h => ⟨h.unknown⟩) ?_
  refine forall_field (sane_str fun _ _ h => ⟨h.unknown⟩) ?_
  refine forall_field (sane_str fun _ _ h => ⟨h.unknown⟩) ?_
  refine forall_field (sane_str fun _ _ h => ⟨h.unknown⟩) ?_
  exact forall_none

/-! #### `DeviceAuthorizationResponse` -/

/-- The kept records are records of other fields. -/
structure DeviceAuthorizationResponse.Ok (m : DeviceAuthorizationResponse) : Prop where
  error : ∀ x, m.error = some x → x.Ok
  unknown : Unknowns (DeviceAuthorizationResponse.fields.map Prod.fst) m.unknown

theorem DeviceAuthorizationResponse.Ok.empty : DeviceAuthorizationResponse.Ok {} := ⟨ok_none, .nil⟩

theorem DeviceAuthorizationResponse.chain (x : DeviceAuthorizationResponse) (h : x.Ok) : Chain DeviceAuthorizationResponse.fields DeviceAuthorizationResponse.keep x.parts {} x := by
  cases x
  refine chain_cons (partOk_optMsg (num := 1) (get := fun m => m.error.getD {}) (set := fun s m => { m with error := s }) rfl rfl (by decide) (by decide) rfl
    (fun s hs => s.dec (h.error s hs))) ?_
  refine chain_cons (partOk_str (num := 2) (set := fun s m => { m with deviceCode := s }) rfl rfl (by decide) (by decide) rfl) ?_
  refine chain_cons (partOk_str (num := 3) (set := fun s m => { m with userCode := s }) rfl rfl (by decide) (by decide) rfl) ?_
  refine chain_cons (partOk_str (num := 4) (set := fun s m => { m with verificationUri := s }) rfl rfl (by decide) (by decide) rfl) ?_
  refine chain_cons (partOk_optStr (num := 5) (set := fun s m => { m with verificationUriComplete := s }) rfl rfl (by decide) (by decide) rfl) ?_
  refine chain_cons (partOk_fix (num := 6) (set := fun s m => { m with expiresIn := s }) rfl rfl (by decide) (by decide) rfl) ?_
  refine chain_cons (partOk_fix (num := 7) (set := fun s m => { m with interval := s }) rfl rfl (by decide) (by decide) rfl) ?_
  refine chain_cons (partOk_str (num := 8) (set := fun s m => { m with issuer := s }) rfl rfl (by decide) (by decide) rfl) ?_
  refine chain_cons (partOk_raw h.unknown (fun _ _ => by simp [DeviceAuthorizationResponse.keep]) rfl) ?_
  exact chain_nil _

theorem DeviceAuthorizationResponse.dec (x : DeviceAuthorizationResponse) (h : x.Ok) :
    ∃ e, EncAll x.parts e ∧ (e.length < 2 ^ 63 → DeviceAuthorizationResponse.unmarshal {} e = .ok x) :=
  dec_of_chain (x.chain h)

theorem DeviceAuthorizationResponse.sane : SaneDec DeviceAuthorizationResponse.Ok DeviceAuthorizationResponse.unmarshal := by
  refine saneDec ?_ fun u m h hu => ⟨h.error, .snoc h.unknown hu⟩
  refine forall_field (sane_msg Error.sane (fun m h => ok_getD h.error Error.Ok.empty) fun s m h hs => ⟨ok_some hs, h.unknown⟩) ?_
  refine forall_field (sane_str fun _ _ h => ⟨h.error, h.unknown⟩) ?_
  refine forall_field (sane_str fun _ _ h => ⟨h.error, h.unknown⟩) ?_
  refine forall_field (sane_str fun _ _ h => ⟨h.error, h.unknown⟩) ?_
  refine forall_field (sane_str fun _ _ h => ⟨h.error, h.unknown⟩) ?_
  refine forall_field (sane_fix fun _ _ h => ⟨h.error, h.unknown⟩) ?_
  refine forall_field (sane_fix fun _ _ h => ⟨h.error, h.unknown⟩) ?_
  refine forall_field (sane_str fun _ _ h => ⟨h.error, h.unknown⟩) ?_
  exact forall_none

/-! #### `DeviceCodeValidationRequest` -/

/-- The kept records are records of other fields. -/
structure DeviceCodeValidationRequest.Ok (m : DeviceCodeValidationRequest) : Prop where
  unknown : Unknowns (DeviceCodeValidationRequest.fields.map Prod.fst) m.unknown

theorem DeviceCodeValidationRequest.Ok.empty : DeviceCodeValidationRequest.Ok {} := ⟨.nil⟩

theorem DeviceCodeValidationRequest.chain (x : DeviceCodeValidationRequest) (h : x.Ok) : Chain DeviceCodeValidationRequest.fields DeviceCodeValidationRequest.keep x.parts {} x := by
  cases x
  refine chain_cons (partOk_str (num := 1) (set := fun s m => { m with issuer := s }) rfl rfl (by decide) (by decide) rfl) ?_
  refine chain_cons (partOk_str (num := 2) (set := fun s m => { m with userCode := s }) rfl rfl (by decide) (by decide) rfl) ?_
  refine chain_cons (partOk_str (num := 3) (set := fun s m => { m with subject := s }) rfl rfl (by decide) (by decide) rfl) ?_
  refine chain_cons (partOk_raw h.unknown (fun _ _ => by simp [DeviceCodeValidationRequest.keep]) rfl) ?_
  exact chain_nil _

theorem DeviceCodeValidationRequest.dec (x : DeviceCodeValidationRequest) (h : x.Ok) :
    ∃ e, EncAll x.parts e ∧ (e.length < 2 ^ 63 → DeviceCodeValidationRequest.unmarshal {} e = .ok x) :=
  dec_of_chain (x.chain h)

theorem DeviceCodeValidationRequest.sane : SaneDec DeviceCodeValidationRequest.Ok DeviceCodeValidationRequest.unmarshal := by
  refine saneDec ?_ fun u m h hu => ⟨.snoc h.unknown hu⟩
  refine forall_field (sane_str fun _ _ h => ⟨h.unknown⟩) ?_
  refine forall_field (sane_str fun _ _ h => ⟨h.unknown⟩) ?_
  refine forall_field (sane_str fun _ _ h => ⟨h.unknown⟩) ?_
  exact forall_none

/-! #### `DeviceCodeValidationResponse` -/

/-- The kept records are records of other fields. -/
structure DeviceCodeValidationResponse.Ok (m : DeviceCodeValidationResponse) : Prop where
  error : ∀ x, m.error = some x → x.Ok
  unknown : Unknowns (DeviceCodeValidationResponse.fields.map Prod.fst) m.unknown

theorem DeviceCodeValidationResponse.Ok.empty : DeviceCodeValidationResponse.Ok {} := ⟨ok_none, .nil⟩

theorem DeviceCodeValidationResponse.chain (x : DeviceCodeValidationResponse) (h : x.Ok) : Chain DeviceCodeValidationResponse.fields DeviceCodeValidationResponse.keep x.parts {} x := by
  cases x
  refine chain_cons (partOk_optMsg (num := 1) (get := fun m => m.error.getD {}) (set := fun s m => { m with error := s }) rfl rfl (by decide) (by decide) rfl
    (fun s hs => s.dec (h.error s hs))) ?_
  refine chain_cons (partOk_raw h.unknown (fun _ _ => by simp [DeviceCodeValidationResponse.keep]) rfl) ?_
  exact chain_nil _

theorem DeviceCodeValidationResponse.dec (x : DeviceCodeValidationResponse) (h : x.Ok) :
    ∃ e, EncAll x.parts e ∧ (e.length < 2 ^ 63 → DeviceCodeValidationResponse.unmarshal {} e = .ok x) :=
  dec_of_chain (x.chain h)

theorem DeviceCodeValidationResponse.sane : SaneDec DeviceCodeValidationResponse.Ok DeviceCodeValidationResponse.unmarshal := by
  refine saneDec ?_ fun u m h hu => ⟨h.error, .snoc h.unknown hu⟩
  refine forall_field (sane_msg Error.sane (fun m h => ok_getD h.error Error.Ok.empty) fun s m h hs => ⟨ok_some hs, h.unknown⟩) ?_
  exact forall_none

/-! #### `GrantAuthorizationCode` -/

/-- The kept records are records of other fields. -/
structure GrantAuthorizationCode.Ok (m : GrantAuthorizationCode) : Prop where
  unknown : Unknowns (GrantAuthorizationCode.fields.map Prod.fst) m.unknown

theorem GrantAuthorizationCode.Ok.empty : GrantAuthorizationCode.Ok {} := ⟨.nil⟩

theorem GrantAuthorizationCode.chain (x : GrantAuthorizationCode) (h : x.Ok) : Chain GrantAuthorizationCode.fields GrantAuthorizationCode.keep x.parts {} x := by
  cases x
  refine chain_cons (partOk_str (num := 1) (set := fun s m => { m with code := s }) rfl rfl (by decide) (by decide) rfl) ?_
  refine chain_cons (partOk_str (num := 2) (set := fun s m => { m with redirectUri := s }) rfl rfl (by decide) (by decide) rfl) ?_
  refine chain_cons (partOk_str (num := 3) (set := fun s m => { m with codeVerifier := s }) rfl rfl (by decide) (by decide) rfl) ?_
  refine chain_cons (partOk_optStr (num := 4) (set := fun s m => { m with dpopJkt := s }) rfl rfl (by decide) (by decide) rfl) ?_
  refine chain_cons (partOk_raw h.unknown (fun _ _ => by simp [GrantAuthorizationCode.keep]) rfl) ?_
  exact chain_nil _

theorem GrantAuthorizationCode.dec (x : GrantAuthorizationCode) (h : x.Ok) :
    ∃ e, EncAll x.parts e ∧ (e.length < 2 ^ 63 → GrantAuthorizationCode.unmarshal {} e = .ok x) :=
  dec_of_chain (x.chain h)

theorem GrantAuthorizationCode.sane : SaneDec GrantAuthorizationCode.Ok GrantAuthorizationCode.unmarshal := by
  refine saneDec ?_ fun u m h hu => ⟨.snoc h.unknown hu⟩
  refine forall_field (sane_str fun _ _ h => ⟨h.unknown⟩) ?_
  refine forall_field (sane_str fun _ _ h => ⟨h.unknown⟩) ?_
  refine forall_field (sane_str fun _ _ h => ⟨h.unknown⟩) ?_
  refine forall_field (sane_str fun _ _ h => ⟨h.unknown⟩) ?_
  exact forall_none

/-! #### `GrantRefreshToken` -/

/-- The kept records are records of other fields. -/
structure GrantRefreshToken.Ok (m : GrantRefreshToken) : Prop where
  unknown : Unknowns (GrantRefreshToken.fields.map Prod.fst) m.unknown

theorem GrantRefreshToken.Ok.empty : GrantRefreshToken.Ok {} := ⟨.nil⟩

theorem GrantRefreshToken.chain (x : GrantRefreshToken) (h : x.Ok) : Chain GrantRefreshToken.fields GrantRefreshToken.keep x.parts {} x := by
  cases x
  refine chain_cons (partOk_str (num := 1) (set := fun s m => { m with refreshToken := s }) rfl rfl (by decide) (by decide) rfl) ?_
  refine chain_cons (partOk_raw h.unknown (fun _ _ => by simp [GrantRefreshToken.keep]) rfl) ?_
  exact chain_nil _

theorem GrantRefreshToken.dec (x : GrantRefreshToken) (h : x.Ok) :
    ∃ e, EncAll x.parts e ∧ (e.length < 2 ^ 63 → GrantRefreshToken.unmarshal {} e = .ok x) :=
  dec_of_chain (x.chain h)

theorem GrantRefreshToken.sane : SaneDec GrantRefreshToken.Ok GrantRefreshToken.unmarshal := by
  refine saneDec ?_ fun u m h hu => ⟨.snoc h.unknown hu⟩
  refine forall_field (sane_str fun _ _ h => ⟨h.unknown⟩) ?_
  exact forall_none

/-! #### `GrantDeviceCode` -/

/-- The kept records are records of other fields. -/
structure GrantDeviceCode.Ok (m : GrantDeviceCode) : Prop where
  unknown : Unknowns (GrantDeviceCode.fields.map Prod.fst) m.unknown

theorem GrantDeviceCode.Ok.empty : GrantDeviceCode.Ok {} := ⟨.nil⟩

theorem GrantDeviceCode.chain (x : GrantDeviceCode) (h : x.Ok) : Chain GrantDeviceCode.fields GrantDeviceCode.keep x.parts {} x := by
  cases x
  refine chain_cons (partOk_str (num := 1) (set := fun s m => { m with deviceCode := s }) rfl rfl (by decide) (by decide) rfl) ?_
  refine chain_cons (partOk_str (num := 2) (set := fun s m => { m with clientId := s }) rfl rfl (by decide) (by decide) rfl) ?_
  refine chain_cons (partOk_raw h.unknown (fun _ _ => by simp [GrantDeviceCode.keep]) rfl) ?_
  exact chain_nil _

theorem GrantDeviceCode.dec (x : GrantDeviceCode) (h : x.Ok) :
    ∃ e, EncAll x.parts e ∧ (e.length < 2 ^ 63 → GrantDeviceCode.unmarshal {} e = .ok x) :=
  dec_of_chain (x.chain h)

theorem GrantDeviceCode.sane : SaneDec GrantDeviceCode.Ok GrantDeviceCode.unmarshal := by
  refine saneDec ?_ fun u m h hu => ⟨.snoc h.unknown hu⟩
  refine forall_field (sane_str fun _ _ h => ⟨h.unknown⟩) ?_
  refine forall_field (sane_str fun _ _ h => ⟨h.unknown⟩) ?_
  exact forall_none

/-! #### `GrantClientCredentials` -/

/-- The kept records are records of other fields. -/
structure GrantClientCredentials.Ok (m : GrantClientCredentials) : Prop where
  unknown : Unknowns (GrantClientCredentials.fields.map Prod.fst) m.unknown

theorem GrantClientCredentials.Ok.empty : GrantClientCredentials.Ok {} := ⟨.nil⟩

theorem GrantClientCredentials.chain (x : GrantClientCredentials) (h : x.Ok) : Chain GrantClientCredentials.fields GrantClientCredentials.keep x.parts {} x := by
  cases x
  refine chain_cons (partOk_raw h.unknown (fun _ _ => by simp [GrantClientCredentials.keep]) rfl) ?_
  exact chain_nil _

theorem GrantClientCredentials.dec (x : GrantClientCredentials) (h : x.Ok) :
    ∃ e, EncAll x.parts e ∧ (e.length < 2 ^ 63 → GrantClientCredentials.unmarshal {} e = .ok x) :=
  dec_of_chain (x.chain h)

theorem GrantClientCredentials.sane : SaneDec GrantClientCredentials.Ok GrantClientCredentials.unmarshal := by
  refine saneDec ?_ fun u m h hu => ⟨.snoc h.unknown hu⟩
  exact forall_none

/-! #### `GrantTokenExchange` -/

/-- The kept records are records of other fields. -/
structure GrantTokenExchange.Ok (m : GrantTokenExchange) : Prop where
  unknown : Unknowns (GrantTokenExchange.fields.map Prod.fst) m.unknown

theorem GrantTokenExchange.Ok.empty : GrantTokenExchange.Ok {} := ⟨.nil⟩

theorem GrantTokenExchange.chain (x : GrantTokenExchange) (h : x.Ok) : Chain GrantTokenExchange.fields GrantTokenExchange.keep x.parts {} x := by
  cases x
  refine chain_cons (partOk_optStr (num := 1) (set := fun s m => { m with requestedTokenType := s }) rfl rfl (by decide) (by decide) rfl) ?_
  refine chain_cons (partOk_str (num := 2) (set := fun s m => { m with subjectToken := s }) rfl rfl (by decide) (by decide) rfl) ?_
  refine chain_cons (partOk_str (num := 3) (set := fun s m => { m with subjectTokenType := s }) rfl rfl (by decide) (by decide) rfl) ?_
  refine chain_cons (partOk_optStr (num := 4) (set := fun s m => { m with actorToken := s }) rfl rfl (by decide) (by decide) rfl) ?_
  refine chain_cons (partOk_optStr (num := 5) (set := fun s m => { m with actorTokenType := s }) rfl rfl (by decide) (by decide) rfl) ?_
  refine chain_cons (partOk_raw h.unknown (fun _ _ => by simp [GrantTokenExchange.keep]) rfl) ?_
  exact chain_nil _

theorem GrantTokenExchange.dec (x : GrantTokenExchange) (h : x.Ok) :
    ∃ e, EncAll x.parts e ∧ (e.length < 2 ^ 63 → GrantTokenExchange.unmarshal {} e = .ok x) :=
  dec_of_chain (x.chain h)

theorem GrantTokenExchange.sane : SaneDec GrantTokenExchange.Ok GrantTokenExchange.unmarshal := by
  refine saneDec ?_ fun u m h hu => ⟨.snoc h.unknown hu⟩
  refine forall_field (sane_str fun _ _ h => ⟨h.unknown⟩) ?_
  refine forall_field (sane_str fun _ _ h => ⟨h.unknown⟩) ?_
  refine forall_field (sane_str fun _ _ h => ⟨h.unknown⟩) ?_
  refine forall_field (sane_str fun _ _ h => ⟨h.unknown⟩) ?_
  refine forall_field (sane_str fun _ _ h => ⟨h.unknown⟩) ?_
  exact forall_none

/-! #### `Resource` -/

/-- The kept records are records of other fields. -/
structure Resource.Ok (m : Resource) : Prop where
  unknown : Unknowns (Resource.fields.map Prod.fst) m.unknown

theorem Resource.Ok.empty : Resource.Ok {} := ⟨.nil⟩

theorem Resource.chain (x : Resource) (h : x.Ok) : Chain Resource.fields Resource.keep x.parts {} x := by
  cases x
  refine chain_cons (partOk_str (num := 1) (set := fun s m => { m with urn := s }) rfl rfl (by decide) (by decide) rfl) ?_
  refine chain_cons (partOk_str (num := 2) (set := fun s m => { m with description := s }) rfl rfl (by decide) (by decide) rfl) ?_
  refine chain_cons (partOk_repStr (num := 3) (get := fun m => m.urls) (set := fun s m => { m with urls := s }) rfl rfl (by decide) (by decide) (fun _ _ => rfl)
    (fun _ _ _ => rfl) (fun _ => rfl) rfl) ?_
  refine chain_cons (partOk_raw h.unknown (fun _ _ => by simp [Resource.keep]) rfl) ?_
  exact chain_nil _

theorem Resource.dec (x : Resource) (h : x.Ok) :
    ∃ e, EncAll x.parts e ∧ (e.length < 2 ^ 63 → Resource.unmarshal {} e = .ok x) :=
  dec_of_chain (x.chain h)

theorem Resource.sane : SaneDec Resource.Ok Resource.unmarshal := by
  refine saneDec ?_ fun u m h hu => ⟨.snoc h.unknown hu⟩
  refine forall_field (sane_str fun _ _ h => ⟨h.unknown⟩) ?_
  refine forall_field (sane_str fun _ _ h => ⟨h.unknown⟩) ?_
  refine forall_field (sane_str fun _ _ h => ⟨h.unknown⟩) ?_
  exact forall_none

/-! #### `AuthorizationCodeSession` -/

/-- The kept records are records of other fields. -/
structure AuthorizationCodeSession.Ok (m : AuthorizationCodeSession) : Prop where
  client : ∀ x, m.client = some x → x.Ok
  request : ∀ x, m.request = some x → x.Ok
  unknown : Unknowns (AuthorizationCodeSession.fields.map Prod.fst) m.unknown

theorem AuthorizationCodeSession.Ok.empty : AuthorizationCodeSession.Ok {} := ⟨ok_none, ok_none, .nil⟩

theorem AuthorizationCodeSession.chain (x : AuthorizationCodeSession) (h : x.Ok) : Chain AuthorizationCodeSession.fields AuthorizationCodeSession.keep x.parts {} x := by
  cases x
  refine chain_cons (partOk_optMsg (num := 1) (get := fun m => m.client.getD {}) (set := fun s m => { m with client := s }) rfl rfl (by decide) (by decide) rfl
    (fun s hs => s.dec (h.client s hs))) ?_
  refine chain_cons (partOk_str (num := 2) (set := fun s m => { m with issuer := s }) rfl rfl (by decide) (by decide) rfl) ?_
  refine chain_cons (partOk_str (num := 3) (set := fun s m => { m with subject := s }) rfl rfl (by decide) (by decide) rfl) ?_
  refine chain_cons (partOk_optMsg (num := 4) (get := fun m => m.request.getD {}) (set := fun s m => { m with request := s }) rfl rfl (by decide) (by decide) rfl
    (fun s hs => s.dec (h.request s hs))) ?_
  refine chain_cons (partOk_raw h.unknown (fun _ _ => by simp [AuthorizationCodeSession.keep]) rfl) ?_
  exact chain_nil _

theorem AuthorizationCodeSession.dec (x : AuthorizationCodeSession) (h : x.Ok) :
    ∃ e, EncAll x.parts e ∧ (e.length < 2 ^ 63 → AuthorizationCodeSession.unmarshal {} e = .ok x) :=
  dec_of_chain (x.chain h)

theorem AuthorizationCodeSession.sane : SaneDec AuthorizationCodeSession.Ok AuthorizationCodeSession.unmarshal := by
  refine saneDec ?_ fun u m h hu => ⟨h.client, h.request, .snoc h.unknown hu⟩
  refine forall_field (sane_msg Client.sane (fun m h => ok_getD h.client Client.Ok.empty) fun s m h hs => ⟨ok_some hs, h.request, h.unknown⟩) ?_
  refine forall_field (sane_str fun _ _ h => ⟨h.client, h.request, h.unknown⟩) ?_
  refine forall_field (sane_str fun _ _ h => ⟨h.client, h.request, h.unknown⟩) ?_
  refine forall_field (sane_msg AuthorizationRequest.sane (fun m h => ok_getD h.request AuthorizationRequest.Ok.empty) fun s m h hs => ⟨h.client, ok_some hs, h.unknown⟩) ?_
  exact forall_none

/-! #### `DeviceCodeSession` -/

/-- The kept records are records of other fields. -/
structure DeviceCodeSession.Ok (m : DeviceCodeSession) : Prop where
  client : ∀ x, m.client = some x → x.Ok
  request : ∀ x, m.request = some x → x.Ok
  unknown : Unknowns (DeviceCodeSession.fields.map Prod.fst) m.unknown

theorem DeviceCodeSession.Ok.empty : DeviceCodeSession.Ok {} := ⟨ok_none, ok_none, .nil⟩

theorem DeviceCodeSession.chain (x : DeviceCodeSession) (h : x.Ok) : Chain DeviceCodeSession.fields DeviceCodeSession.keep x.parts {} x := by
  cases x
  refine chain_cons (partOk_optMsg (num := 1) (get := fun m => m.client.getD {}) (set := fun s m => { m with client := s }) rfl rfl (by decide) (by decide) rfl
    (fun s hs => s.dec (h.client s hs))) ?_
  refine chain_cons (partOk_str (num := 2) (set := fun s m => { m with issuer := s }) rfl rfl (by decide) (by decide) rfl) ?_
  refine chain_cons (partOk_fix (num := 3) (set := fun s m => { m with expiresAt := s }) rfl rfl (by decide) (by decide) rfl) ?_
  refine chain_cons (partOk_optMsg (num := 4) (get := fun m => m.request.getD {}) (set := fun s m => { m with request := s }) rfl rfl (by decide) (by decide) rfl
    (fun s hs => s.dec (h.request s hs))) ?_
  refine chain_cons (partOk_enum (num := 5) (set := fun s m => { m with status := s }) rfl rfl (by decide) (by decide) rfl) ?_
  refine chain_cons (partOk_str (num := 6) (set := fun s m => { m with deviceCode := s }) rfl rfl (by decide) (by decide) rfl) ?_
  refine chain_cons (partOk_str (num := 7) (set := fun s m => { m with confirmationCode := s }) rfl rfl (by decide) (by decide) rfl) ?_
  refine chain_cons (partOk_optStr (num := 8) (set := fun s m => { m with subject := s }) rfl rfl (by decide) (by decide) rfl) ?_
  refine chain_cons (partOk_optStr (num := 9) (set := fun s m => { m with scope := s }) rfl rfl (by decide) (by decide) rfl) ?_
  refine chain_cons (partOk_optStr (num := 10) (set := fun s m => { m with audience := s }) rfl rfl (by decide) (by decide) rfl) ?_
  refine chain_cons (partOk_raw h.unknown (fun _ _ => by simp [DeviceCodeSession.keep]) rfl) ?_
  exact chain_nil _

theorem DeviceCodeSession.dec (x : DeviceCodeSession) (h : x.Ok) :
    ∃ e, EncAll x.parts e ∧ (e.length < 2 ^ 63 → DeviceCodeSession.unmarshal {} e = .ok x) :=
  dec_of_chain (x.chain h)

theorem DeviceCodeSession.sane : SaneDec DeviceCodeSession.Ok DeviceCodeSession.unmarshal := by
  refine saneDec ?_ fun u m h hu => ⟨h.client, h.request, .snoc h.unknown hu⟩
  refine forall_field (sane_msg Client.sane (fun m h => ok_getD h.client Client.Ok.empty) fun s m h hs => ⟨ok_some hs, h.request, h.unknown⟩) ?_
  refine forall_field (sane_str fun _ _ h => ⟨h.client, h.request, h.unknown⟩) ?_
  refine forall_field (sane_fix fun _ _ h => ⟨h.client, h.request, h.unknown⟩) ?_
  refine forall_field (sane_msg DeviceAuthorizationRequest.sane (fun m h => ok_getD h.request DeviceAuthorizationRequest.Ok.empty) fun s m h hs => ⟨h.client, ok_some hs, h.unknown⟩) ?_
  refine forall_field (sane_enum fun _ _ h => ⟨h.client, h.request, h.unknown⟩) ?_
  refine forall_field (sane_str fun _ _ h => ⟨h.client, h.request, h.unknown⟩) ?_
  refine forall_field (sane_str fun _ _ h => ⟨h.client, h.request, h.unknown⟩) ?_
  refine forall_field (sane_str fun _ _ h => ⟨h.client, h.request, h.unknown⟩) ?_
  refine forall_field (sane_str fun _ _ h => ⟨h.client, h.request, h.unknown⟩) ?_
  refine forall_field (sane_str fun _ _ h => ⟨h.client, h.request, h.unknown⟩) ?_
  exact forall_none

/-! #### `IntrospectRequest` -/

/-- The kept records are records of other fields. -/
structure IntrospectRequest.Ok (m : IntrospectRequest) : Prop where
  client : ∀ x, m.client = some x → x.Ok
  unknown : Unknowns (IntrospectRequest.fields.map Prod.fst) m.unknown

theorem IntrospectRequest.Ok.empty : IntrospectRequest.Ok {} := ⟨ok_none, .nil⟩

theorem IntrospectRequest.chain (x : IntrospectRequest) (h : x.Ok) : Chain IntrospectRequest.fields IntrospectRequest.keep x.parts {} x := by
  cases x
  refine chain_cons (partOk_str (num := 1) (set := fun s m => { m with issuer := s }) rfl rfl (by decide) (by decide) rfl) ?_
  refine chain_cons (partOk_optMsg (num := 2) (get := fun m => m.client.getD {}) (set := fun s m => { m with client := s }) rfl rfl (by decide) (by decide) rfl
    (fun s hs => s.dec (h.client s hs))) ?_
  refine chain_cons (partOk_str (num := 3) (set := fun s m => { m with token := s }) rfl rfl (by decide) (by decide) rfl) ?_
  refine chain_cons (partOk_optStr (num := 4) (set := fun s m => { m with tokenTypeHint := s }) rfl rfl (by decide) (by decide) rfl) ?_
  refine chain_cons (partOk_raw h.unknown (fun _ _ => by simp [IntrospectRequest.keep]) rfl) ?_
  exact chain_nil _

theorem IntrospectRequest.dec (x : IntrospectRequest) (h : x.Ok) :
    ∃ e, EncAll x.parts e ∧ (e.length < 2 ^ 63 → IntrospectRequest.unmarshal {} e = .ok x) :=
  dec_of_chain (x.chain h)

theorem IntrospectRequest.sane : SaneDec IntrospectRequest.Ok IntrospectRequest.unmarshal := by
  refine saneDec ?_ fun u m h hu => ⟨h.client, .snoc h.unknown hu⟩
  refine forall_field (sane_str fun _ _ h => ⟨h.client, h.unknown⟩) ?_
  refine forall_field (sane_msg Client.sane (fun m h => ok_getD h.client Client.Ok.empty) fun s m h hs => ⟨ok_some hs, h.unknown⟩) ?_
  refine forall_field (sane_str fun _ _ h => ⟨h.client, h.unknown⟩) ?_
  refine forall_field (sane_str fun _ _ h => ⟨h.client, h.unknown⟩) ?_
  exact forall_none

/-! #### `IntrospectResponse` -/

/-- The kept records are records of other fields. -/
structure IntrospectResponse.Ok (m : IntrospectResponse) : Prop where
  error : ∀ x, m.error = some x → x.Ok
  token : ∀ x, m.token = some x → x.Ok
  unknown : Unknowns (IntrospectResponse.fields.map Prod.fst) m.unknown

theorem IntrospectResponse.Ok.empty : IntrospectResponse.Ok {} := ⟨ok_none, ok_none, .nil⟩

theorem IntrospectResponse.chain (x : IntrospectResponse) (h : x.Ok) : Chain IntrospectResponse.fields IntrospectResponse.keep x.parts {} x := by
  cases x
  refine chain_cons (partOk_optMsg (num := 1) (get := fun m => m.error.getD {}) (set := fun s m => { m with error := s }) rfl rfl (by decide) (by decide) rfl
    (fun s hs => s.dec (h.error s hs))) ?_
  refine chain_cons (partOk_optMsg (num := 2) (get := fun m => m.token.getD {}) (set := fun s m => { m with token := s }) rfl rfl (by decide) (by decide) rfl
    (fun s hs => s.dec (h.token s hs))) ?_
  refine chain_cons (partOk_raw h.unknown (fun _ _ => by simp [IntrospectResponse.keep]) rfl) ?_
  exact chain_nil _

theorem IntrospectResponse.dec (x : IntrospectResponse) (h : x.Ok) :
    ∃ e, EncAll x.parts e ∧ (e.length < 2 ^ 63 → IntrospectResponse.unmarshal {} e = .ok x) :=
  dec_of_chain (x.chain h)

theorem IntrospectResponse.sane : SaneDec IntrospectResponse.Ok IntrospectResponse.unmarshal := by
  refine saneDec ?_ fun u m h hu => ⟨h.error, h.token, .snoc h.unknown hu⟩
  refine forall_field (sane_msg Error.sane (fun m h => ok_getD h.error Error.Ok.empty) fun s m h hs => ⟨ok_some hs, h.token, h.unknown⟩) ?_
  refine forall_field (sane_msg Token.sane (fun m h => ok_getD h.token Token.Ok.empty) fun s m h hs => ⟨h.error, ok_some hs, h.unknown⟩) ?_
  exact forall_none

/-! #### `RevokeRequest` -/

/-- The kept records are records of other fields. -/
structure RevokeRequest.Ok (m : RevokeRequest) : Prop where
  client : ∀ x, m.client = some x → x.Ok
  unknown : Unknowns (RevokeRequest.fields.map Prod.fst) m.unknown

theorem RevokeRequest.Ok.empty : RevokeRequest.Ok {} := ⟨ok_none, .nil⟩

theorem RevokeRequest.chain (x : RevokeRequest) (h : x.Ok) : Chain RevokeRequest.fields RevokeRequest.keep x.parts {} x := by
  cases x
  refine chain_cons (partOk_str (num := 1) (set := fun s m => { m with issuer := s }) rfl rfl (by decide) (by decide) rfl) ?_
  refine chain_cons (partOk_optMsg (num := 2) (get := fun m => m.client.getD {}) (set := fun s m => { m with client := s }) rfl rfl (by decide) (by decide) rfl
    (fun s hs => s.dec (h.client s hs))) ?_
  refine chain_cons (partOk_str (num := 3) (set := fun s m => { m with token := s }) rfl rfl (by decide) (by decide) rfl) ?_
  refine chain_cons (partOk_optStr (num := 4) (set := fun s m => { m with tokenTypeHint := s }) rfl rfl (by decide) (by decide) rfl) ?_
  refine chain_cons (partOk_raw h.unknown (fun _ _ => by simp [RevokeRequest.keep]) rfl) ?_
  exact chain_nil _

theorem RevokeRequest.dec (x : RevokeRequest) (h : x.Ok) :
    ∃ e, EncAll x.parts e ∧ (e.length < 2 ^ 63 → RevokeRequest.unmarshal {} e = .ok x) :=
  dec_of_chain (x.chain h)

theorem RevokeRequest.sane : SaneDec RevokeRequest.Ok RevokeRequest.unmarshal := by
  refine saneDec ?_ fun u m h hu => ⟨h.client, .snoc h.unknown hu⟩
  refine forall_field (sane_str fun _ _ h => ⟨h.client, h.unknown⟩) ?_
  refine forall_field (sane_msg Client.sane (fun m h => ok_getD h.client Client.Ok.empty) fun s m h hs => ⟨ok_some hs, h.unknown⟩) ?_
  refine forall_field (sane_str fun _ _ h => ⟨h.client, h.unknown⟩) ?_
  refine forall_field (sane_str fun _ _ h => ⟨h.client, h.unknown⟩) ?_
  exact forall_none

/-! #### `RevokeResponse` -/

/-- The kept records are records of other fields. -/
structure RevokeResponse.Ok (m : RevokeResponse) : Prop where
  error : ∀ x, m.error = some x → x.Ok
  unknown : Unknowns (RevokeResponse.fields.map Prod.fst) m.unknown

theorem RevokeResponse.Ok.empty : RevokeResponse.Ok {} := ⟨ok_none, .nil⟩

theorem RevokeResponse.chain (x : RevokeResponse) (h : x.Ok) : Chain RevokeResponse.fields RevokeResponse.keep x.parts {} x := by
  cases x
  refine chain_cons (partOk_optMsg (num := 1) (get := fun m => m.error.getD {}) (set := fun s m => { m with error := s }) rfl rfl (by decide) (by decide) rfl
    (fun s hs => s.dec (h.error s hs))) ?_
  refine chain_cons (partOk_raw h.unknown (fun _ _ => by simp [RevokeResponse.keep]) rfl) ?_
  exact chain_nil _

theorem RevokeResponse.dec (x : RevokeResponse) (h : x.Ok) :
    ∃ e, EncAll x.parts e ∧ (e.length < 2 ^ 63 → RevokeResponse.unmarshal {} e = .ok x) :=
  dec_of_chain (x.chain h)

theorem RevokeResponse.sane : SaneDec RevokeResponse.Ok RevokeResponse.unmarshal := by
  refine saneDec ?_ fun u m h hu => ⟨h.error, .snoc h.unknown hu⟩
  refine forall_field (sane_msg Error.sane (fun m h => ok_getD h.error Error.Ok.empty) fun s m h hs => ⟨ok_some hs, h.unknown⟩) ?_
  exact forall_none

/-! #### `OAuthTokenResponse` -/

/-- The kept records are records of other fields. -/
structure OAuthTokenResponse.Ok (m : OAuthTokenResponse) : Prop where
  unknown : Unknowns (OAuthTokenResponse.fields.map Prod.fst) m.unknown

theorem OAuthTokenResponse.Ok.empty : OAuthTokenResponse.Ok {} := ⟨.nil⟩

theorem OAuthTokenResponse.chain (x : OAuthTokenResponse) (h : x.Ok) : Chain OAuthTokenResponse.fields OAuthTokenResponse.keep x.parts {} x := by
  cases x
  refine chain_cons (partOk_str (num := 1) (set := fun s m => { m with accessToken := s }) rfl rfl (by decide) (by decide) rfl) ?_
  refine chain_cons (partOk_str (num := 2) (set := fun s m => { m with tokenType := s }) rfl rfl (by decide) (by decide) rfl) ?_
  refine chain_cons (partOk_fix (num := 3) (set := fun s m => { m with expiresIn := s }) rfl rfl (by decide) (by decide) rfl) ?_
  refine chain_cons (partOk_optStr (num := 4) (set := fun s m => { m with refreshToken := s }) rfl rfl (by decide) (by decide) rfl) ?_
  refine chain_cons (partOk_optStr (num := 5) (set := fun s m => { m with idToken := s }) rfl rfl (by decide) (by decide) rfl) ?_
  refine chain_cons (partOk_raw h.unknown (fun _ _ => by simp [OAuthTokenResponse.keep]) rfl) ?_
  exact chain_nil _

theorem OAuthTokenResponse.dec (x : OAuthTokenResponse) (h : x.Ok) :
    ∃ e, EncAll x.parts e ∧ (e.length < 2 ^ 63 → OAuthTokenResponse.unmarshal {} e = .ok x) :=
  dec_of_chain (x.chain h)

theorem OAuthTokenResponse.sane : SaneDec OAuthTokenResponse.Ok OAuthTokenResponse.unmarshal := by
  refine saneDec ?_ fun u m h hu => ⟨.snoc h.unknown hu⟩
  refine forall_field (sane_str fun _ _ h => ⟨h.unknown⟩) ?_
  refine forall_field (sane_str fun _ _ h => ⟨h.unknown⟩) ?_
  refine forall_field (sane_fix fun _ _ h => ⟨h.unknown⟩) ?_
  refine forall_field (sane_str fun _ _ h => ⟨h.unknown⟩) ?_
  refine forall_field (sane_str fun _ _ h => ⟨h.unknown⟩) ?_
  exact forall_none

/-! #### `TokenRequest` -/

def Grant.Ok : Grant → Prop
  | .authorizationCode x => x.Ok
  | .clientCredentials x => x.Ok
  | .deviceCode x => x.Ok
  | .refreshToken x => x.Ok
  | .tokenExchange x => x.Ok

/-- The kept records are records of other fields. -/
structure TokenRequest.Ok (m : TokenRequest) : Prop where
  client : ∀ x, m.client = some x → x.Ok
  tokenConfirmation : ∀ x, m.tokenConfirmation = some x → x.Ok
  grant : ∀ x, m.grant = some x → x.Ok
  unknown : Unknowns (TokenRequest.fields.map Prod.fst) m.unknown

theorem TokenRequest.Ok.empty : TokenRequest.Ok {} := ⟨ok_none, ok_none, ok_none, .nil⟩

theorem TokenRequest.chain (x : TokenRequest) (h : x.Ok) : Chain TokenRequest.fields TokenRequest.keep x.parts {} x := by
  obtain ⟨issuer, client, grantType, scope, tokenConfirmation, resource, audience, grant, u⟩ := x
  refine chain_cons (partOk_str (num := 1) (set := fun s m => { m with issuer := s }) rfl rfl (by decide) (by decide) rfl) ?_
  refine chain_cons (partOk_optMsg (num := 2) (get := fun m => m.client.getD {}) (set := fun s m => { m with client := s }) rfl rfl (by decide) (by decide) rfl
    (fun s hs => s.dec (h.client s hs))) ?_
  refine chain_cons (partOk_str (num := 3) (set := fun s m => { m with grantType := s }) rfl rfl (by decide) (by decide) rfl) ?_
  refine chain_cons (partOk_optStr (num := 4) (set := fun s m => { m with scope := s }) rfl rfl (by decide) (by decide) rfl) ?_
  refine chain_cons (partOk_optMsg (num := 5) (get := fun m => m.tokenConfirmation.getD {}) (set := fun s m => { m with tokenConfirmation := s }) rfl rfl (by decide) (by decide) rfl
    (fun s hs => s.dec (h.tokenConfirmation s hs))) ?_
  refine chain_cons (partOk_repStr (num := 6) (get := fun m => m.resource) (set := fun s m => { m with resource := s }) rfl rfl (by decide) (by decide) (fun _ _ => rfl)
    (fun _ _ _ => rfl) (fun _ => rfl) rfl) ?_
  refine chain_cons (partOk_optStr (num := 7) (set := fun s m => { m with audience := s }) rfl rfl (by decide) (by decide) rfl) ?_
  refine chain_cons (m' := { issuer, client, grantType, scope, tokenConfirmation, resource, audience, grant }) ?_ ?_
  · cases grant with
    | none => exact ⟨[], enc_nil, fun _ => adv_nil _⟩
    | some g =>
      have hg := h.grant g rfl
      cases g
      · exact partOk_msg (num := 10) (get := fun m => Grant.authorizationCodeOf m.grant)
          (set := fun s (m : TokenRequest) => { m with grant := some (.authorizationCode s) }) rfl rfl (by decide) (by decide) (GrantAuthorizationCode.dec _ hg)
      · exact partOk_msg (num := 11) (get := fun m => Grant.clientCredentialsOf m.grant)
          (set := fun s (m : TokenRequest) => { m with grant := some (.clientCredentials s) }) rfl rfl (by decide) (by decide) (GrantClientCredentials.dec _ hg)
      · exact partOk_msg (num := 12) (get := fun m => Grant.deviceCodeOf m.grant)
          (set := fun s (m : TokenRequest) => { m with grant := some (.deviceCode s) }) rfl rfl (by decide) (by decide) (GrantDeviceCode.dec _ hg)
      · exact partOk_msg (num := 13) (get := fun m => Grant.refreshTokenOf m.grant)
          (set := fun s (m : TokenRequest) => { m with grant := some (.refreshToken s) }) rfl rfl (by decide) (by decide) (GrantRefreshToken.dec _ hg)
      · exact partOk_msg (num := 14) (get := fun m => Grant.tokenExchangeOf m.grant)
          (set := fun s (m : TokenRequest) => { m with grant := some (.tokenExchange s) }) rfl rfl (by decide) (by decide) (GrantTokenExchange.dec _ hg)
  refine chain_cons (partOk_raw h.unknown (fun _ _ => by simp [TokenRequest.keep]) rfl) ?_
  exact chain_nil _

theorem TokenRequest.dec (x : TokenRequest) (h : x.Ok) :
    ∃ e, EncAll x.parts e ∧ (e.length < 2 ^ 63 → TokenRequest.unmarshal {} e = .ok x) :=
  dec_of_chain (x.chain h)

theorem TokenRequest.sane : SaneDec TokenRequest.Ok TokenRequest.unmarshal := by
  refine saneDec ?_ fun u m h hu => ⟨h.client, h.tokenConfirmation, h.grant, .snoc h.unknown hu⟩
  refine forall_field (sane_str fun _ _ h => ⟨h.client, h.tokenConfirmation, h.grant, h.unknown⟩) ?_
  refine forall_field (sane_msg Client.sane (fun m h => ok_getD h.client Client.Ok.empty) fun s m h hs => ⟨ok_some hs, h.tokenConfirmation, h.grant, h.unknown⟩) ?_
  refine forall_field (sane_str fun _ _ h => ⟨h.client, h.tokenConfirmation, h.grant, h.unknown⟩) ?_
  refine forall_field (sane_str fun _ _ h => ⟨h.client, h.tokenConfirmation, h.grant, h.unknown⟩) ?_
  refine forall_field (sane_msg TokenConfirmation.sane (fun m h => ok_getD h.tokenConfirmation TokenConfirmation.Ok.empty) fun s m h hs => ⟨h.client, ok_some hs, h.grant, h.unknown⟩) ?_
  refine forall_field (sane_str fun _ _ h => ⟨h.client, h.tokenConfirmation, h.grant, h.unknown⟩) ?_
  refine forall_field (sane_str fun _ _ h => ⟨h.client, h.tokenConfirmation, h.grant, h.unknown⟩) ?_
  refine forall_field (sane_msg GrantAuthorizationCode.sane ?_ fun s m h hs => ⟨h.client, h.tokenConfirmation, ok_some (Q := Grant.Ok) hs, h.unknown⟩) ?_
  · intro m h
    have hg := h.grant
    unfold Grant.authorizationCodeOf
    split
    · rename_i x hx
      exact hg _ hx
    · exact GrantAuthorizationCode.Ok.empty
  refine forall_field (sane_msg GrantClientCredentials.sane ?_ fun s m h hs => ⟨h.client, h.tokenConfirmation, ok_some (Q := Grant.Ok) hs, h.unknown⟩) ?_
  · intro m h
    have hg := h.grant
    unfold Grant.clientCredentialsOf
    split
    · rename_i x hx
      exact hg _ hx
    · exact GrantClientCredentials.Ok.empty
  refine forall_field (sane_msg GrantDeviceCode.sane ?_ fun s m h hs => ⟨h.client, h.tokenConfirmation, ok_some (Q := Grant.Ok) hs, h.unknown⟩) ?_
  · intro m h
    have hg := h.grant
    unfold Grant.deviceCodeOf
    split
    · rename_i x hx
      exact hg _ hx
    · exact GrantDeviceCode.Ok.empty
  refine forall_field (sane_msg GrantRefreshToken.sane ?_ fun s m h hs => ⟨h.client, h.tokenConfirmation, ok_some (Q := Grant.Ok) hs, h.unknown⟩) ?_
  · intro m h
    have hg := h.grant
    unfold Grant.refreshTokenOf
    split
    · rename_i x hx
      exact hg _ hx
    · exact GrantRefreshToken.Ok.empty
  refine forall_field (sane_msg GrantTokenExchange.sane ?_ fun s m h hs => ⟨h.client, h.tokenConfirmation, ok_some (Q := Grant.Ok) hs, h.unknown⟩) ?_
  · intro m h
    have hg := h.grant
    unfold Grant.tokenExchangeOf
    split
    · rename_i x hx
      exact hg _ hx
    · exact GrantTokenExchange.Ok.empty
  exact forall_none

end Verif.Pb
