import Verif.Proofs.WireMerge
import Verif.Props.WireMap

/-! Encodings that follow each other are read as one after the other (C108). -/
namespace Verif.Props
open Verif.Jose (Out)
open Verif.Wire Verif.Pb

/-- An input that starts with something that can be read is read by reading that and then the
rest into the result. So the parts of a message may come in pieces and in any sequence: a later
piece overrides what it sets, and adds to lists, maps and nested messages. The bound on the size
is that of Go's `int`. -/
def Merges {M : Type} (unmarshal : M → Str → Out M) : Prop :=
  ∀ (m m' : M) (a b : Str), (a ++ b).length < 2 ^ 63 → unmarshal m a = .ok m' → unmarshal m (a ++ b) = unmarshal m' b

theorem SaneDec.any {S : Type} {Q : S → Prop} {dec : S → Str → Out S} (h : SaneDec Q dec) : SaneDec (fun _ => True) dec :=
  ⟨h.noPanic, fun _ _ _ _ _ => trivial⟩

theorem merges_of {M : Type} {fields : List (Nat × Handler M)} {keep : Str → M → M}
    (hs : ∀ p ∈ fields, Sane (fun _ => True) p.2) (hu : ∀ p ∈ fields, Uniform p.2) : Merges (unmarshal fields keep) :=
  fun _ _ _ _ hl h => unmarshal_append hs hu hl h

theorem C108_authenticateRequest : Merges AuthenticateRequest.unmarshal := by
  refine merges_of (fields := AuthenticateRequest.fields) ?_ ?_
  · refine forall_field (sane_str fun _ _ _ => trivial) ?_
    refine forall_field (sane_str fun _ _ _ => trivial) ?_
    refine forall_field (sane_str fun _ _ _ => trivial) ?_
    refine forall_field (sane_str fun _ _ _ => trivial) ?_
    exact forall_none
  · refine uniform_cons (uniform_str _) ?_
    refine uniform_cons (uniform_str _) ?_
    refine uniform_cons (uniform_str _) ?_
    refine uniform_cons (uniform_str _) ?_
    exact uniform_none

theorem C108_error : Merges Error.unmarshal := by
  refine merges_of (fields := Error.fields) ?_ ?_
  · refine forall_field (sane_str fun _ _ _ => trivial) ?_
    refine forall_field (sane_str fun _ _ _ => trivial) ?_
    refine forall_field (sane_str fun _ _ _ => trivial) ?_
    refine forall_field (sane_str fun _ _ _ => trivial) ?_
    refine forall_field (sane_str fun _ _ _ => trivial) ?_
    exact forall_none
  · refine uniform_cons (uniform_str _) ?_
    refine uniform_cons (uniform_str _) ?_
    refine uniform_cons (uniform_str _) ?_
    refine uniform_cons (uniform_str _) ?_
    refine uniform_cons (uniform_str _) ?_
    exact uniform_none

theorem C108_client : Merges Client.unmarshal := by
  refine merges_of (fields := Client.fields) ?_ ?_
  · refine forall_field (sane_str fun _ _ _ => trivial) ?_
    refine forall_field (sane_enum fun _ _ _ => trivial) ?_
    refine forall_field (sane_str fun _ _ _ => trivial) ?_
    refine forall_field (sane_str fun _ _ _ => trivial) ?_
    refine forall_field (sane_str fun _ _ _ => trivial) ?_
    refine forall_field (sane_str fun _ _ _ => trivial) ?_
    refine forall_field (sane_str fun _ _ _ => trivial) ?_
    refine forall_field (sane_str fun _ _ _ => trivial) ?_
    refine forall_field (sane_str fun _ _ _ => trivial) ?_
    refine forall_field (sane_str fun _ _ _ => trivial) ?_
    refine forall_field (sane_str fun _ _ _ => trivial) ?_
    refine forall_field (sane_str fun _ _ _ => trivial) ?_
    refine forall_field (sane_str fun _ _ _ => trivial) ?_
    refine forall_field (sane_str fun _ _ _ => trivial) ?_
    refine forall_field (sane_str fun _ _ _ => trivial) ?_
    refine forall_field (sane_str fun _ _ _ => trivial) ?_
    refine forall_field (sane_str fun _ _ _ => trivial) ?_
    refine forall_field (sane_str fun _ _ _ => trivial) ?_
    refine forall_field (sane_str fun _ _ _ => trivial) ?_
    refine forall_field (sane_str fun _ _ _ => trivial) ?_
    refine forall_field (sane_str fun _ _ _ => trivial) ?_
    refine forall_field (sane_str fun _ _ _ => trivial) ?_
    refine forall_field (sane_str fun _ _ _ => trivial) ?_
    refine forall_field (sane_str fun _ _ _ => trivial) ?_
    refine forall_field (sane_bool fun _ _ _ => trivial) ?_
    refine forall_field (sane_bool fun _ _ _ => trivial) ?_
    refine forall_field (sane_bool fun _ _ _ => trivial) ?_
    refine forall_field (sane_bool fun _ _ _ => trivial) ?_
    exact forall_none
  · refine uniform_cons (uniform_str _) ?_
    refine uniform_cons (uniform_enum _) ?_
    refine uniform_cons (uniform_str _) ?_
    refine uniform_cons (uniform_str _) ?_
    refine uniform_cons (uniform_str _) ?_
    refine uniform_cons (uniform_str _) ?_
    refine uniform_cons (uniform_str _) ?_
    refine uniform_cons (uniform_str _) ?_
    refine uniform_cons (uniform_str _) ?_
    refine uniform_cons (uniform_str _) ?_
    refine uniform_cons (uniform_str _) ?_
    refine uniform_cons (uniform_str _) ?_
    refine uniform_cons (uniform_str _) ?_
    refine uniform_cons (uniform_str _) ?_
    refine uniform_cons (uniform_str _) ?_
    refine uniform_cons (uniform_str _) ?_
    refine uniform_cons (uniform_str _) ?_
    refine uniform_cons (uniform_str _) ?_
    refine uniform_cons (uniform_str _) ?_
    refine uniform_cons (uniform_str _) ?_
    refine uniform_cons (uniform_str _) ?_
    refine uniform_cons (uniform_str _) ?_
    refine uniform_cons (uniform_str _) ?_
    refine uniform_cons (uniform_str _) ?_
    refine uniform_cons (uniform_bool _) ?_
    refine uniform_cons (uniform_bool _) ?_
    refine uniform_cons (uniform_bool _) ?_
    refine uniform_cons (uniform_bool _) ?_
    exact uniform_none

theorem C108_authenticateResponse : Merges AuthenticateResponse.unmarshal := by
  refine merges_of (fields := AuthenticateResponse.fields) ?_ ?_
  · refine forall_field (sane_msg (SaneDec.any Error.sane) (fun _ _ => trivial) fun _ _ _ _ => trivial) ?_
    refine forall_field (sane_msg (SaneDec.any Client.sane) (fun _ _ => trivial) fun _ _ _ _ => trivial) ?_
    exact forall_none
  · refine uniform_cons (uniform_msg _ _ _) ?_
    refine uniform_cons (uniform_msg _ _ _) ?_
    exact uniform_none

theorem C108_registerResponse : Merges RegisterResponse.unmarshal := by
  refine merges_of (fields := RegisterResponse.fields) ?_ ?_
  · refine forall_field (sane_msg (SaneDec.any Error.sane) (fun _ _ => trivial) fun _ _ _ _ => trivial) ?_
    refine forall_field (sane_msg (SaneDec.any Client.sane) (fun _ _ => trivial) fun _ _ _ _ => trivial) ?_
    exact forall_none
  · refine uniform_cons (uniform_msg _ _ _) ?_
    refine uniform_cons (uniform_msg _ _ _) ?_
    exact uniform_none

theorem C108_softwareStatement : Merges SoftwareStatement.unmarshal := by
  refine merges_of (fields := SoftwareStatement.fields) ?_ ?_
  · refine forall_field (sane_str fun _ _ _ => trivial) ?_
    exact forall_none
  · refine uniform_cons (uniform_str _) ?_
    exact uniform_none

theorem C108_protectedResourceMetadata : Merges ProtectedResourceMetadata.unmarshal := by
  refine merges_of (fields := ProtectedResourceMetadata.fields) ?_ ?_
  · refine forall_field (sane_str fun _ _ _ => trivial) ?_
    refine forall_field (sane_str fun _ _ _ => trivial) ?_
    refine forall_field (sane_str fun _ _ _ => trivial) ?_
    refine forall_field (sane_str fun _ _ _ => trivial) ?_
    refine forall_field (sane_str fun _ _ _ => trivial) ?_
    refine forall_field (sane_str fun _ _ _ => trivial) ?_
    refine forall_field (sane_str fun _ _ _ => trivial) ?_
    refine forall_field (sane_str fun _ _ _ => trivial) ?_
    refine forall_field (sane_str fun _ _ _ => trivial) ?_
    refine forall_field (sane_str fun _ _ _ => trivial) ?_
    refine forall_field (sane_str fun _ _ _ => trivial) ?_
    refine forall_field (sane_str fun _ _ _ => trivial) ?_
    exact forall_none
  · refine uniform_cons (uniform_str _) ?_
    refine uniform_cons (uniform_str _) ?_
    refine uniform_cons (uniform_str _) ?_
    refine uniform_cons (uniform_str _) ?_
    refine uniform_cons (uniform_str _) ?_
    refine uniform_cons (uniform_str _) ?_
    refine uniform_cons (uniform_str _) ?_
    refine uniform_cons (uniform_str _) ?_
    refine uniform_cons (uniform_str _) ?_
    refine uniform_cons (uniform_str _) ?_
    refine uniform_cons (uniform_str _) ?_
    refine uniform_cons (uniform_str _) ?_
    exact uniform_none

theorem C108_mTLSEndpoints : Merges MTLSEndpoints.unmarshal := by
  refine merges_of (fields := MTLSEndpoints.fields) ?_ ?_
  · refine forall_field (sane_str fun _ _ _ => trivial) ?_
    refine forall_field (sane_str fun _ _ _ => trivial) ?_
    refine forall_field (sane_str fun _ _ _ => trivial) ?_
    refine forall_field (sane_str fun _ _ _ => trivial) ?_
    refine forall_field (sane_str fun _ _ _ => trivial) ?_
    exact forall_none
  · refine uniform_cons (uniform_str _) ?_
    refine uniform_cons (uniform_str _) ?_
    refine uniform_cons (uniform_str _) ?_
    refine uniform_cons (uniform_str _) ?_
    refine uniform_cons (uniform_str _) ?_
    exact uniform_none

theorem C108_serverMetadata : Merges ServerMetadata.unmarshal := by
  refine merges_of (fields := ServerMetadata.fields) ?_ ?_
  · refine forall_field (sane_str fun _ _ _ => trivial) ?_
    refine forall_field (sane_str fun _ _ _ => trivial) ?_
    refine forall_field (sane_str fun _ _ _ => trivial) ?_
    refine forall_field (sane_str fun _ _ _ => trivial) ?_
    refine forall_field (sane_str fun _ _ _ => trivial) ?_
    refine forall_field (sane_str fun _ _ _ => trivial) ?_
    refine forall_field (sane_str fun _ _ _ => trivial) ?_
    refine forall_field (sane_str fun _ _ _ => trivial) ?_
    refine forall_field (sane_str fun _ _ _ => trivial) ?_
    refine forall_field (sane_str fun _ _ _ => trivial) ?_
    refine forall_field (sane_str fun _ _ _ => trivial) ?_
    refine forall_field (sane_str fun _ _ _ => trivial) ?_
    refine forall_field (sane_str fun _ _ _ => trivial) ?_
    refine forall_field (sane_str fun _ _ _ => trivial) ?_
    refine forall_field (sane_str fun _ _ _ => trivial) ?_
    refine forall_field (sane_str fun _ _ _ => trivial) ?_
    refine forall_field (sane_str fun _ _ _ => trivial) ?_
    refine forall_field (sane_str fun _ _ _ => trivial) ?_
    refine forall_field (sane_str fun _ _ _ => trivial) ?_
    refine forall_field (sane_str fun _ _ _ => trivial) ?_
    refine forall_field (sane_str fun _ _ _ => trivial) ?_
    refine forall_field (sane_str fun _ _ _ => trivial) ?_
    refine forall_field (sane_str fun _ _ _ => trivial) ?_
    refine forall_field (sane_str fun _ _ _ => trivial) ?_
    refine forall_field (sane_str fun _ _ _ => trivial) ?_
    refine forall_field (sane_str fun _ _ _ => trivial) ?_
    refine forall_field (sane_str fun _ _ _ => trivial) ?_
    refine forall_field (sane_str fun _ _ _ => trivial) ?_
    refine forall_field (sane_str fun _ _ _ => trivial) ?_
    refine forall_field (sane_bool fun _ _ _ => trivial) ?_
    refine forall_field (sane_bool fun _ _ _ => trivial) ?_
    refine forall_field (sane_bool fun _ _ _ => trivial) ?_
    refine forall_field (sane_bool fun _ _ _ => trivial) ?_
    refine forall_field (sane_str fun _ _ _ => trivial) ?_
    refine forall_field (sane_str fun _ _ _ => trivial) ?_
    refine forall_field (sane_str fun _ _ _ => trivial) ?_
    refine forall_field (sane_str fun _ _ _ => trivial) ?_
    refine forall_field (sane_str fun _ _ _ => trivial) ?_
    refine forall_field (sane_str fun _ _ _ => trivial) ?_
    refine forall_field (sane_str fun _ _ _ => trivial) ?_
    refine forall_field (sane_str fun _ _ _ => trivial) ?_
    refine forall_field (sane_str fun _ _ _ => trivial) ?_
    refine forall_field (sane_str fun _ _ _ => trivial) ?_
    refine forall_field (sane_str fun _ _ _ => trivial) ?_
    refine forall_field (sane_msg (SaneDec.any MTLSEndpoints.sane) (fun _ _ => trivial) fun _ _ _ _ => trivial) ?_
    refine forall_field (sane_str fun _ _ _ => trivial) ?_
    refine forall_field (sane_str fun _ _ _ => trivial) ?_
    refine forall_field (sane_bool fun _ _ _ => trivial) ?_
    refine forall_field (sane_str fun _ _ _ => trivial) ?_
    refine forall_field (sane_str fun _ _ _ => trivial) ?_
    refine forall_field (sane_str fun _ _ _ => trivial) ?_
    refine forall_field (sane_bool fun _ _ _ => trivial) ?_
    refine forall_field (sane_str fun _ _ _ => trivial) ?_
    refine forall_field (sane_str fun _ _ _ => trivial) ?_
    refine forall_field (sane_str fun _ _ _ => trivial) ?_
    refine forall_field (sane_str fun _ _ _ => trivial) ?_
    exact forall_none
  · refine uniform_cons (uniform_str _) ?_
    refine uniform_cons (uniform_str _) ?_
    refine uniform_cons (uniform_str _) ?_
    refine uniform_cons (uniform_str _) ?_
    refine uniform_cons (uniform_str _) ?_
    refine uniform_cons (uniform_str _) ?_
    refine uniform_cons (uniform_str _) ?_
    refine uniform_cons (uniform_str _) ?_
    refine uniform_cons (uniform_str _) ?_
    refine uniform_cons (uniform_str _) ?_
    refine uniform_cons (uniform_str _) ?_
    refine uniform_cons (uniform_str _) ?_
    refine uniform_cons (uniform_str _) ?_
    refine uniform_cons (uniform_str _) ?_
    refine uniform_cons (uniform_str _) ?_
    refine uniform_cons (uniform_str _) ?_
    refine uniform_cons (uniform_str _) ?_
    refine uniform_cons (uniform_str _) ?_
    refine uniform_cons (uniform_str _) ?_
    refine uniform_cons (uniform_str _) ?_
    refine uniform_cons (uniform_str _) ?_
    refine uniform_cons (uniform_str _) ?_
    refine uniform_cons (uniform_str _) ?_
    refine uniform_cons (uniform_str _) ?_
    refine uniform_cons (uniform_str _) ?_
    refine uniform_cons (uniform_str _) ?_
    refine uniform_cons (uniform_str _) ?_
    refine uniform_cons (uniform_str _) ?_
    refine uniform_cons (uniform_str _) ?_
    refine uniform_cons (uniform_bool _) ?_
    refine uniform_cons (uniform_bool _) ?_
    refine uniform_cons (uniform_bool _) ?_
    refine uniform_cons (uniform_bool _) ?_
    refine uniform_cons (uniform_str _) ?_
    refine uniform_cons (uniform_str _) ?_
    refine uniform_cons (uniform_str _) ?_
    refine uniform_cons (uniform_str _) ?_
    refine uniform_cons (uniform_str _) ?_
    refine uniform_cons (uniform_str _) ?_
    refine uniform_cons (uniform_str _) ?_
    refine uniform_cons (uniform_str _) ?_
    refine uniform_cons (uniform_str _) ?_
    refine uniform_cons (uniform_str _) ?_
    refine uniform_cons (uniform_str _) ?_
    refine uniform_cons (uniform_msg _ _ _) ?_
    refine uniform_cons (uniform_str _) ?_
    refine uniform_cons (uniform_str _) ?_
    refine uniform_cons (uniform_bool _) ?_
    refine uniform_cons (uniform_str _) ?_
    refine uniform_cons (uniform_str _) ?_
    refine uniform_cons (uniform_str _) ?_
    refine uniform_cons (uniform_bool _) ?_
    refine uniform_cons (uniform_str _) ?_
    refine uniform_cons (uniform_str _) ?_
    refine uniform_cons (uniform_str _) ?_
    refine uniform_cons (uniform_str _) ?_
    exact uniform_none

theorem C108_authorizationRequest : Merges AuthorizationRequest.unmarshal := by
  refine merges_of (fields := AuthorizationRequest.fields) ?_ ?_
  · refine forall_field (sane_str fun _ _ _ => trivial) ?_
    refine forall_field (sane_str fun _ _ _ => trivial) ?_
    refine forall_field (sane_str fun _ _ _ => trivial) ?_
    refine forall_field (sane_str fun _ _ _ => trivial) ?_
    refine forall_field (sane_str fun _ _ _ => trivial) ?_
    refine forall_field (sane_str fun _ _ _ => trivial) ?_
    refine forall_field (sane_str fun _ _ _ => trivial) ?_
    refine forall_field (sane_str fun _ _ _ => trivial) ?_
    refine forall_field (sane_str fun _ _ _ => trivial) ?_
    refine forall_field (sane_varint fun _ _ _ => trivial) ?_
    refine forall_field (sane_str fun _ _ _ => trivial) ?_
    refine forall_field (sane_str fun _ _ _ => trivial) ?_
    refine forall_field (sane_str fun _ _ _ => trivial) ?_
    refine forall_field (sane_str fun _ _ _ => trivial) ?_
    refine forall_field (sane_str fun _ _ _ => trivial) ?_
    refine forall_field (sane_str fun _ _ _ => trivial) ?_
    refine forall_field (sane_str fun _ _ _ => trivial) ?_
    refine forall_field (sane_str fun _ _ _ => trivial) ?_
    refine forall_field (sane_str fun _ _ _ => trivial) ?_
    refine forall_field (sane_str fun _ _ _ => trivial) ?_
    refine forall_field (sane_str fun _ _ _ => trivial) ?_
    refine forall_field (sane_str fun _ _ _ => trivial) ?_
    refine forall_field (sane_str fun _ _ _ => trivial) ?_
    exact forall_none
  · refine uniform_cons (uniform_str _) ?_
    refine uniform_cons (uniform_str _) ?_
    refine uniform_cons (uniform_str _) ?_
    refine uniform_cons (uniform_str _) ?_
    refine uniform_cons (uniform_str _) ?_
    refine uniform_cons (uniform_str _) ?_
    refine uniform_cons (uniform_str _) ?_
    refine uniform_cons (uniform_str _) ?_
    refine uniform_cons (uniform_str _) ?_
    refine uniform_cons (uniform_varint _) ?_
    refine uniform_cons (uniform_str _) ?_
    refine uniform_cons (uniform_str _) ?_
    refine uniform_cons (uniform_str _) ?_
    refine uniform_cons (uniform_str _) ?_
    refine uniform_cons (uniform_str _) ?_
    refine uniform_cons (uniform_str _) ?_
    refine uniform_cons (uniform_str _) ?_
    refine uniform_cons (uniform_str _) ?_
    refine uniform_cons (uniform_str _) ?_
    refine uniform_cons (uniform_str _) ?_
    refine uniform_cons (uniform_str _) ?_
    refine uniform_cons (uniform_str _) ?_
    refine uniform_cons (uniform_str _) ?_
    exact uniform_none

theorem C108_authorizeRequest : Merges AuthorizeRequest.unmarshal := by
  refine merges_of (fields := AuthorizeRequest.fields) ?_ ?_
  · refine forall_field (sane_str fun _ _ _ => trivial) ?_
    refine forall_field (sane_msg (SaneDec.any Client.sane) (fun _ _ => trivial) fun _ _ _ _ => trivial) ?_
    refine forall_field (sane_str fun _ _ _ => trivial) ?_
    refine forall_field (sane_msg (SaneDec.any AuthorizationRequest.sane) (fun _ _ => trivial) fun _ _ _ _ => trivial) ?_
    exact forall_none
  · refine uniform_cons (uniform_str _) ?_
    refine uniform_cons (uniform_msg _ _ _) ?_
    refine uniform_cons (uniform_str _) ?_
    refine uniform_cons (uniform_msg _ _ _) ?_
    exact uniform_none

theorem C108_authorizeResponse : Merges AuthorizeResponse.unmarshal := by
  refine merges_of (fields := AuthorizeResponse.fields) ?_ ?_
  · refine forall_field (sane_msg (SaneDec.any Error.sane) (fun _ _ => trivial) fun _ _ _ _ => trivial) ?_
    refine forall_field (sane_str fun _ _ _ => trivial) ?_
    refine forall_field (sane_str fun _ _ _ => trivial) ?_
    refine forall_field (sane_str fun _ _ _ => trivial) ?_
    refine forall_field (sane_str fun _ _ _ => trivial) ?_
    refine forall_field (sane_fix fun _ _ _ => trivial) ?_
    refine forall_field (sane_str fun _ _ _ => trivial) ?_
    refine forall_field (sane_str fun _ _ _ => trivial) ?_
    exact forall_none
  · refine uniform_cons (uniform_msg _ _ _) ?_
    refine uniform_cons (uniform_str _) ?_
    refine uniform_cons (uniform_str _) ?_
    refine uniform_cons (uniform_str _) ?_
    refine uniform_cons (uniform_str _) ?_
    refine uniform_cons (uniform_fix _) ?_
    refine uniform_cons (uniform_str _) ?_
    refine uniform_cons (uniform_str _) ?_
    exact uniform_none

theorem C108_tokenConfirmation : Merges TokenConfirmation.unmarshal := by
  refine merges_of (fields := TokenConfirmation.fields) ?_ ?_
  · refine forall_field (sane_str fun _ _ _ => trivial) ?_
    exact forall_none
  · refine uniform_cons (uniform_str _) ?_
    exact uniform_none

theorem C108_registrationRequest : Merges RegistrationRequest.unmarshal := by
  refine merges_of (fields := RegistrationRequest.fields) ?_ ?_
  · refine forall_field (sane_str fun _ _ _ => trivial) ?_
    refine forall_field (sane_msg (SaneDec.any Client.sane) (fun _ _ => trivial) fun _ _ _ _ => trivial) ?_
    refine forall_field (sane_msg (SaneDec.any AuthorizationRequest.sane) (fun _ _ => trivial) fun _ _ _ _ => trivial) ?_
    refine forall_field (sane_msg (SaneDec.any TokenConfirmation.sane) (fun _ _ => trivial) fun _ _ _ _ => trivial) ?_
    exact forall_none
  · refine uniform_cons (uniform_str _) ?_
    refine uniform_cons (uniform_msg _ _ _) ?_
    refine uniform_cons (uniform_msg _ _ _) ?_
    refine uniform_cons (uniform_msg _ _ _) ?_
    exact uniform_none

theorem C108_registrationResponse : Merges RegistrationResponse.unmarshal := by
  refine merges_of (fields := RegistrationResponse.fields) ?_ ?_
  · refine forall_field (sane_msg (SaneDec.any Error.sane) (fun _ _ => trivial) fun _ _ _ _ => trivial) ?_
    refine forall_field (sane_str fun _ _ _ => trivial) ?_
    refine forall_field (sane_fix fun _ _ _ => trivial) ?_
    refine forall_field (sane_str fun _ _ _ => trivial) ?_
    exact forall_none
  · refine uniform_cons (uniform_msg _ _ _) ?_
    refine uniform_cons (uniform_str _) ?_
    refine uniform_cons (uniform_fix _) ?_
    refine uniform_cons (uniform_str _) ?_
    exact uniform_none

theorem C108_tokenMeta : Merges TokenMeta.unmarshal := by
  refine merges_of (fields := TokenMeta.fields) ?_ ?_
  · refine forall_field (sane_str fun _ _ _ => trivial) ?_
    refine forall_field (sane_str fun _ _ _ => trivial) ?_
    refine forall_field (sane_fix fun _ _ _ => trivial) ?_
    refine forall_field (sane_fix fun _ _ _ => trivial) ?_
    refine forall_field (sane_fix fun _ _ _ => trivial) ?_
    refine forall_field (sane_str fun _ _ _ => trivial) ?_
    refine forall_field (sane_str fun _ _ _ => trivial) ?_
    refine forall_field (sane_str fun _ _ _ => trivial) ?_
    refine forall_field (sane_str fun _ _ _ => trivial) ?_
    refine forall_field (sane_fix fun _ _ _ => trivial) ?_
    exact forall_none
  · refine uniform_cons (uniform_str _) ?_
    refine uniform_cons (uniform_str _) ?_
    refine uniform_cons (uniform_fix _) ?_
    refine uniform_cons (uniform_fix _) ?_
    refine uniform_cons (uniform_fix _) ?_
    refine uniform_cons (uniform_str _) ?_
    refine uniform_cons (uniform_str _) ?_
    refine uniform_cons (uniform_str _) ?_
    refine uniform_cons (uniform_str _) ?_
    refine uniform_cons (uniform_fix _) ?_
    exact uniform_none

theorem merges_actor (n : Nat) : Merges (Actor.decode (n + 1)) := by
  refine merges_of (fields := Actor.fields (Actor.decode n)) ?_ ?_
  · unfold Actor.fields
    repeat' refine forall_field ?_ ?_
    all_goals first
      | exact forall_none
      | exact sane_str fun _ _ _ => trivial
      | exact sane_msg (SaneDec.any (Actor.sane_decode n)) (fun _ _ => trivial) fun _ _ _ _ => trivial
  · unfold Actor.fields
    refine uniform_cons (uniform_str _) (uniform_cons (uniform_str _) (uniform_cons (uniform_str _) (uniform_cons (uniform_msg _ _ _) uniform_none)))

theorem C108_actor : Merges Actor.unmarshal := by
  intro m m' a b hl h
  have e : ∀ m d, d.length ≤ (a ++ b).length → Actor.unmarshal m d = Actor.decode ((a ++ b).length + 1) m d :=
    fun m d hd => (C52_actor_depth _ m d (by omega)).symm
  rw [e m a (by simp)] at h
  rw [e m (a ++ b) (Nat.le_refl _), e m' b (by simp)]
  exact merges_actor _ m m' a b hl h

theorem C108_token : Merges Token.unmarshal := by
  refine merges_of (fields := Token.fields) ?_ ?_
  · refine forall_field (sane_str fun _ _ _ => trivial) ?_
    refine forall_field (sane_enum fun _ _ _ => trivial) ?_
    refine forall_field (sane_str fun _ _ _ => trivial) ?_
    refine forall_field (sane_msg (SaneDec.any TokenMeta.sane) (fun _ _ => trivial) fun _ _ _ _ => trivial) ?_
    refine forall_field (sane_enum fun _ _ _ => trivial) ?_
    refine forall_field (sane_str fun _ _ _ => trivial) ?_
    refine forall_field (sane_str fun _ _ _ => trivial) ?_
    refine forall_field (sane_msg (SaneDec.any TokenConfirmation.sane) (fun _ _ => trivial) fun _ _ _ _ => trivial) ?_
    refine forall_field (sane_msg (SaneDec.any Actor.sane) (fun _ _ => trivial) fun _ _ _ _ => trivial) ?_
    refine forall_field (sane_msg (SaneDec.any Actor.sane) (fun _ _ => trivial) fun _ _ _ _ => trivial) ?_
    exact forall_none
  · refine uniform_cons (uniform_str _) ?_
    refine uniform_cons (uniform_enum _) ?_
    refine uniform_cons (uniform_str _) ?_
    refine uniform_cons (uniform_msg _ _ _) ?_
    refine uniform_cons (uniform_enum _) ?_
    refine uniform_cons (uniform_str _) ?_
    refine uniform_cons (uniform_str _) ?_
    refine uniform_cons (uniform_msg _ _ _) ?_
    refine uniform_cons (uniform_msg _ _ _) ?_
    refine uniform_cons (uniform_msg _ _ _) ?_
    exact uniform_none

theorem C108_tokenResponse : Merges TokenResponse.unmarshal := by
  refine merges_of (fields := TokenResponse.fields) ?_ ?_
  · refine forall_field (sane_msg (SaneDec.any Error.sane) (fun _ _ => trivial) fun _ _ _ _ => trivial) ?_
    refine forall_field (sane_msg (SaneDec.any Token.sane) (fun _ _ => trivial) fun _ _ _ _ => trivial) ?_
    refine forall_field (sane_msg (SaneDec.any Token.sane) (fun _ _ => trivial) fun _ _ _ _ => trivial) ?_
    refine forall_field (sane_msg (SaneDec.any Token.sane) (fun _ _ => trivial) fun _ _ _ _ => trivial) ?_
    refine forall_field (sane_str fun _ _ _ => trivial) ?_
    refine forall_field (sane_str fun _ _ _ => trivial) ?_
    refine forall_field (sane_str fun _ _ _ => trivial) ?_
    exact forall_none
  · refine uniform_cons (uniform_msg _ _ _) ?_
    refine uniform_cons (uniform_msg _ _ _) ?_
    refine uniform_cons (uniform_msg _ _ _) ?_
    refine uniform_cons (uniform_msg _ _ _) ?_
    refine uniform_cons (uniform_str _) ?_
    refine uniform_cons (uniform_str _) ?_
    refine uniform_cons (uniform_str _) ?_
    exact uniform_none

theorem C108_deviceAuthorizationRequest : Merges DeviceAuthorizationRequest.unmarshal := by
  refine merges_of (fields := DeviceAuthorizationRequest.fields) ?_ ?_
  · refine forall_field (sane_str fun _ _ _ => trivial) ?_
    refine forall_field (sane_str fun _ _ _ => trivial) ?_
    refine forall_field (sane_str fun _ _ _ => trivial) ?_
    refine forall_field (sane_str fun _ _ _ => trivial) ?_
    exact forall_none
  · refine uniform_cons (uniform_str _) ?_
    refine uniform_cons (uniform_str _) ?_
    refine uniform_cons (uniform_str _) ?_
    refine uniform_cons (uniform_str _) ?_
    exact uniform_none

theorem C108_deviceAuthorizationResponse : Merges DeviceAuthorizationResponse.unmarshal := by
  refine merges_of (fields := DeviceAuthorizationResponse.fields) ?_ ?_
  · refine forall_field (sane_msg (SaneDec.any Error.sane) (fun _ _ => trivial) fun _ _ _ _ => trivial) ?_
    refine forall_field (sane_str fun _ _ _ => trivial) ?_
    refine forall_field (sane_str fun _ _ _ => trivial) ?_
    refine forall_field (sane_str fun _ _ _ => trivial) ?_
    refine forall_field (sane_str fun _ _ _ => trivial) ?_
    refine forall_field (sane_fix fun _ _ _ => trivial) ?_
    refine forall_field (sane_fix fun _ _ _ => trivial) ?_
    refine forall_field (sane_str fun _ _ _ => trivial) ?_
    exact forall_none
  · refine uniform_cons (uniform_msg _ _ _) ?_
    refine uniform_cons (uniform_str _) ?_
    refine uniform_cons (uniform_str _) ?_
    refine uniform_cons (uniform_str _) ?_
    refine uniform_cons (uniform_str _) ?_
    refine uniform_cons (uniform_fix _) ?_
    refine uniform_cons (uniform_fix _) ?_
    refine uniform_cons (uniform_str _) ?_
    exact uniform_none

theorem C108_deviceCodeValidationRequest : Merges DeviceCodeValidationRequest.unmarshal := by
  refine merges_of (fields := DeviceCodeValidationRequest.fields) ?_ ?_
  · refine forall_field (sane_str fun _ _ _ => trivial) ?_
    refine forall_field (sane_str fun _ _ _ => trivial) ?_
    refine forall_field (sane_str fun _ _ _ => trivial) ?_
    exact forall_none
  · refine uniform_cons (uniform_str _) ?_
    refine uniform_cons (uniform_str _) ?_
    refine uniform_cons (uniform_str _) ?_
    exact uniform_none

theorem C108_deviceCodeValidationResponse : Merges DeviceCodeValidationResponse.unmarshal := by
  refine merges_of (fields := DeviceCodeValidationResponse.fields) ?_ ?_
  · refine forall_field (sane_msg (SaneDec.any Error.sane) (fun _ _ => trivial) fun _ _ _ _ => trivial) ?_
    exact forall_none
  · refine uniform_cons (uniform_msg _ _ _) ?_
    exact uniform_none

theorem C108_grantAuthorizationCode : Merges GrantAuthorizationCode.unmarshal := by
  refine merges_of (fields := GrantAuthorizationCode.fields) ?_ ?_
  · refine forall_field (sane_str fun _ _ _ => trivial) ?_
    refine forall_field (sane_str fun _ _ _ => trivial) ?_
    refine forall_field (sane_str fun _ _ _ => trivial) ?_
    refine forall_field (sane_str fun _ _ _ => trivial) ?_
    exact forall_none
  · refine uniform_cons (uniform_str _) ?_
    refine uniform_cons (uniform_str _) ?_
    refine uniform_cons (uniform_str _) ?_
    refine uniform_cons (uniform_str _) ?_
    exact uniform_none

theorem C108_grantRefreshToken : Merges GrantRefreshToken.unmarshal := by
  refine merges_of (fields := GrantRefreshToken.fields) ?_ ?_
  · refine forall_field (sane_str fun _ _ _ => trivial) ?_
    exact forall_none
  · refine uniform_cons (uniform_str _) ?_
    exact uniform_none

theorem C108_grantDeviceCode : Merges GrantDeviceCode.unmarshal := by
  refine merges_of (fields := GrantDeviceCode.fields) ?_ ?_
  · refine forall_field (sane_str fun _ _ _ => trivial) ?_
    refine forall_field (sane_str fun _ _ _ => trivial) ?_
    exact forall_none
  · refine uniform_cons (uniform_str _) ?_
    refine uniform_cons (uniform_str _) ?_
    exact uniform_none

theorem C108_grantClientCredentials : Merges GrantClientCredentials.unmarshal := by
  refine merges_of (fields := GrantClientCredentials.fields) ?_ ?_
  · exact forall_none
  · exact uniform_none

theorem C108_grantTokenExchange : Merges GrantTokenExchange.unmarshal := by
  refine merges_of (fields := GrantTokenExchange.fields) ?_ ?_
  · refine forall_field (sane_str fun _ _ _ => trivial) ?_
    refine forall_field (sane_str fun _ _ _ => trivial) ?_
    refine forall_field (sane_str fun _ _ _ => trivial) ?_
    refine forall_field (sane_str fun _ _ _ => trivial) ?_
    refine forall_field (sane_str fun _ _ _ => trivial) ?_
    exact forall_none
  · refine uniform_cons (uniform_str _) ?_
    refine uniform_cons (uniform_str _) ?_
    refine uniform_cons (uniform_str _) ?_
    refine uniform_cons (uniform_str _) ?_
    refine uniform_cons (uniform_str _) ?_
    exact uniform_none

theorem C108_resource : Merges Resource.unmarshal := by
  refine merges_of (fields := Resource.fields) ?_ ?_
  · refine forall_field (sane_str fun _ _ _ => trivial) ?_
    refine forall_field (sane_str fun _ _ _ => trivial) ?_
    refine forall_field (sane_str fun _ _ _ => trivial) ?_
    exact forall_none
  · refine uniform_cons (uniform_str _) ?_
    refine uniform_cons (uniform_str _) ?_
    refine uniform_cons (uniform_str _) ?_
    exact uniform_none

theorem C108_authorizationCodeSession : Merges AuthorizationCodeSession.unmarshal := by
  refine merges_of (fields := AuthorizationCodeSession.fields) ?_ ?_
  · refine forall_field (sane_msg (SaneDec.any Client.sane) (fun _ _ => trivial) fun _ _ _ _ => trivial) ?_
    refine forall_field (sane_str fun _ _ _ => trivial) ?_
    refine forall_field (sane_str fun _ _ _ => trivial) ?_
    refine forall_field (sane_msg (SaneDec.any AuthorizationRequest.sane) (fun _ _ => trivial) fun _ _ _ _ => trivial) ?_
    exact forall_none
  · refine uniform_cons (uniform_msg _ _ _) ?_
    refine uniform_cons (uniform_str _) ?_
    refine uniform_cons (uniform_str _) ?_
    refine uniform_cons (uniform_msg _ _ _) ?_
    exact uniform_none

theorem C108_deviceCodeSession : Merges DeviceCodeSession.unmarshal := by
  refine merges_of (fields := DeviceCodeSession.fields) ?_ ?_
  · refine forall_field (sane_msg (SaneDec.any Client.sane) (fun _ _ => trivial) fun _ _ _ _ => trivial) ?_
    refine forall_field (sane_str fun _ _ _ => trivial) ?_
    refine forall_field (sane_fix fun _ _ _ => trivial) ?_
    refine forall_field (sane_msg (SaneDec.any DeviceAuthorizationRequest.sane) (fun _ _ => trivial) fun _ _ _ _ => trivial) ?_
    refine forall_field (sane_enum fun _ _ _ => trivial) ?_
    refine forall_field (sane_str fun _ _ _ => trivial) ?_
    refine forall_field (sane_str fun _ _ _ => trivial) ?_
    refine forall_field (sane_str fun _ _ _ => trivial) ?_
    refine forall_field (sane_str fun _ _ _ => trivial) ?_
    refine forall_field (sane_str fun _ _ _ => trivial) ?_
    exact forall_none
  · refine uniform_cons (uniform_msg _ _ _) ?_
    refine uniform_cons (uniform_str _) ?_
    refine uniform_cons (uniform_fix _) ?_
    refine uniform_cons (uniform_msg _ _ _) ?_
    refine uniform_cons (uniform_enum _) ?_
    refine uniform_cons (uniform_str _) ?_
    refine uniform_cons (uniform_str _) ?_
    refine uniform_cons (uniform_str _) ?_
    refine uniform_cons (uniform_str _) ?_
    refine uniform_cons (uniform_str _) ?_
    exact uniform_none

theorem C108_introspectRequest : Merges IntrospectRequest.unmarshal := by
  refine merges_of (fields := IntrospectRequest.fields) ?_ ?_
  · refine forall_field (sane_str fun _ _ _ => trivial) ?_
    refine forall_field (sane_msg (SaneDec.any Client.sane) (fun _ _ => trivial) fun _ _ _ _ => trivial) ?_
    refine forall_field (sane_str fun _ _ _ => trivial) ?_
    refine forall_field (sane_str fun _ _ _ => trivial) ?_
    exact forall_none
  · refine uniform_cons (uniform_str _) ?_
    refine uniform_cons (uniform_msg _ _ _) ?_
    refine uniform_cons (uniform_str _) ?_
    refine uniform_cons (uniform_str _) ?_
    exact uniform_none

theorem C108_introspectResponse : Merges IntrospectResponse.unmarshal := by
  refine merges_of (fields := IntrospectResponse.fields) ?_ ?_
  · refine forall_field (sane_msg (SaneDec.any Error.sane) (fun _ _ => trivial) fun _ _ _ _ => trivial) ?_
    refine forall_field (sane_msg (SaneDec.any Token.sane) (fun _ _ => trivial) fun _ _ _ _ => trivial) ?_
    exact forall_none
  · refine uniform_cons (uniform_msg _ _ _) ?_
    refine uniform_cons (uniform_msg _ _ _) ?_
    exact uniform_none

theorem C108_revokeRequest : Merges RevokeRequest.unmarshal := by
  refine merges_of (fields := RevokeRequest.fields) ?_ ?_
  · refine forall_field (sane_str fun _ _ _ => trivial) ?_
    refine forall_field (sane_msg (SaneDec.any Client.sane) (fun _ _ => trivial) fun _ _ _ _ => trivial) ?_
    refine forall_field (sane_str fun _ _ _ => trivial) ?_
    refine forall_field (sane_str fun _ _ _ => trivial) ?_
    exact forall_none
  · refine uniform_cons (uniform_str _) ?_
    refine uniform_cons (uniform_msg _ _ _) ?_
    refine uniform_cons (uniform_str _) ?_
    refine uniform_cons (uniform_str _) ?_
    exact uniform_none

theorem C108_revokeResponse : Merges RevokeResponse.unmarshal := by
  refine merges_of (fields := RevokeResponse.fields) ?_ ?_
  · refine forall_field (sane_msg (SaneDec.any Error.sane) (fun _ _ => trivial) fun _ _ _ _ => trivial) ?_
    exact forall_none
  · refine uniform_cons (uniform_msg _ _ _) ?_
    exact uniform_none

theorem C108_oAuthTokenResponse : Merges OAuthTokenResponse.unmarshal := by
  refine merges_of (fields := OAuthTokenResponse.fields) ?_ ?_
  · refine forall_field (sane_str fun _ _ _ => trivial) ?_
    refine forall_field (sane_str fun _ _ _ => trivial) ?_
    refine forall_field (sane_fix fun _ _ _ => trivial) ?_
    refine forall_field (sane_str fun _ _ _ => trivial) ?_
    refine forall_field (sane_str fun _ _ _ => trivial) ?_
    exact forall_none
  · refine uniform_cons (uniform_str _) ?_
    refine uniform_cons (uniform_str _) ?_
    refine uniform_cons (uniform_fix _) ?_
    refine uniform_cons (uniform_str _) ?_
    refine uniform_cons (uniform_str _) ?_
    exact uniform_none

theorem C108_tokenRequest : Merges TokenRequest.unmarshal := by
  refine merges_of (fields := TokenRequest.fields) ?_ ?_
  · refine forall_field (sane_str fun _ _ _ => trivial) ?_
    refine forall_field (sane_msg (SaneDec.any Client.sane) (fun _ _ => trivial) fun _ _ _ _ => trivial) ?_
    refine forall_field (sane_str fun _ _ _ => trivial) ?_
    refine forall_field (sane_str fun _ _ _ => trivial) ?_
    refine forall_field (sane_msg (SaneDec.any TokenConfirmation.sane) (fun _ _ => trivial) fun _ _ _ _ => trivial) ?_
    refine forall_field (sane_str fun _ _ _ => trivial) ?_
    refine forall_field (sane_str fun _ _ _ => trivial) ?_
    refine forall_field (sane_msg (SaneDec.any GrantAuthorizationCode.sane) (fun _ _ => trivial) fun _ _ _ _ => trivial) ?_
    refine forall_field (sane_msg (SaneDec.any GrantClientCredentials.sane) (fun _ _ => trivial) fun _ _ _ _ => trivial) ?_
    refine forall_field (sane_msg (SaneDec.any GrantDeviceCode.sane) (fun _ _ => trivial) fun _ _ _ _ => trivial) ?_
    refine forall_field (sane_msg (SaneDec.any GrantRefreshToken.sane) (fun _ _ => trivial) fun _ _ _ _ => trivial) ?_
    refine forall_field (sane_msg (SaneDec.any GrantTokenExchange.sane) (fun _ _ => trivial) fun _ _ _ _ => trivial) ?_
    exact forall_none
  · refine uniform_cons (uniform_str _) ?_
    refine uniform_cons (uniform_msg _ _ _) ?_
    refine uniform_cons (uniform_str _) ?_
    refine uniform_cons (uniform_str _) ?_
    refine uniform_cons (uniform_msg _ _ _) ?_
    refine uniform_cons (uniform_str _) ?_
    refine uniform_cons (uniform_str _) ?_
    refine uniform_cons (uniform_msg _ _ _) ?_
    refine uniform_cons (uniform_msg _ _ _) ?_
    refine uniform_cons (uniform_msg _ _ _) ?_
    refine uniform_cons (uniform_msg _ _ _) ?_
    refine uniform_cons (uniform_msg _ _ _) ?_
    exact uniform_none

theorem C108_clientMeta : Merges ClientMeta.unmarshal := by
  refine merges_of (fields := ClientMeta.fields) ?_ ?_
  · refine forall_field (sane_str fun _ _ _ => trivial) ?_
    refine forall_field (sane_str fun _ _ _ => trivial) ?_
    refine forall_field (sane_str fun _ _ _ => trivial) ?_
    refine forall_field (sane_str fun _ _ _ => trivial) ?_
    refine forall_field (sane_str fun _ _ _ => trivial) ?_
    refine forall_field (sane_str fun _ _ _ => trivial) ?_
    refine forall_field (sane_map fun _ _ _ _ => trivial) ?_
    refine forall_field (sane_str fun _ _ _ => trivial) ?_
    refine forall_field (sane_str fun _ _ _ => trivial) ?_
    refine forall_field (sane_map fun _ _ _ _ => trivial) ?_
    refine forall_field (sane_str fun _ _ _ => trivial) ?_
    refine forall_field (sane_str fun _ _ _ => trivial) ?_
    refine forall_field (sane_str fun _ _ _ => trivial) ?_
    refine forall_field (sane_map fun _ _ _ _ => trivial) ?_
    refine forall_field (sane_str fun _ _ _ => trivial) ?_
    refine forall_field (sane_map fun _ _ _ _ => trivial) ?_
    refine forall_field (sane_str fun _ _ _ => trivial) ?_
    refine forall_field (sane_str fun _ _ _ => trivial) ?_
    refine forall_field (sane_str fun _ _ _ => trivial) ?_
    refine forall_field (sane_str fun _ _ _ => trivial) ?_
    refine forall_field (sane_str fun _ _ _ => trivial) ?_
    refine forall_field (sane_str fun _ _ _ => trivial) ?_
    refine forall_field (sane_str fun _ _ _ => trivial) ?_
    refine forall_field (sane_str fun _ _ _ => trivial) ?_
    refine forall_field (sane_str fun _ _ _ => trivial) ?_
    refine forall_field (sane_str fun _ _ _ => trivial) ?_
    refine forall_field (sane_str fun _ _ _ => trivial) ?_
    refine forall_field (sane_str fun _ _ _ => trivial) ?_
    refine forall_field (sane_bool fun _ _ _ => trivial) ?_
    refine forall_field (sane_str fun _ _ _ => trivial) ?_
    refine forall_field (sane_str fun _ _ _ => trivial) ?_
    refine forall_field (sane_str fun _ _ _ => trivial) ?_
    refine forall_field (sane_str fun _ _ _ => trivial) ?_
    refine forall_field (sane_bool fun _ _ _ => trivial) ?_
    refine forall_field (sane_bool fun _ _ _ => trivial) ?_
    refine forall_field (sane_bool fun _ _ _ => trivial) ?_
    exact forall_none
  · refine uniform_cons (uniform_str _) ?_
    refine uniform_cons (uniform_str _) ?_
    refine uniform_cons (uniform_str _) ?_
    refine uniform_cons (uniform_str _) ?_
    refine uniform_cons (uniform_str _) ?_
    refine uniform_cons (uniform_str _) ?_
    refine uniform_cons (uniform_map _ _) ?_
    refine uniform_cons (uniform_str _) ?_
    refine uniform_cons (uniform_str _) ?_
    refine uniform_cons (uniform_map _ _) ?_
    refine uniform_cons (uniform_str _) ?_
    refine uniform_cons (uniform_str _) ?_
    refine uniform_cons (uniform_str _) ?_
    refine uniform_cons (uniform_map _ _) ?_
    refine uniform_cons (uniform_str _) ?_
    refine uniform_cons (uniform_map _ _) ?_
    refine uniform_cons (uniform_str _) ?_
    refine uniform_cons (uniform_str _) ?_
    refine uniform_cons (uniform_str _) ?_
    refine uniform_cons (uniform_str _) ?_
    refine uniform_cons (uniform_str _) ?_
    refine uniform_cons (uniform_str _) ?_
    refine uniform_cons (uniform_str _) ?_
    refine uniform_cons (uniform_str _) ?_
    refine uniform_cons (uniform_str _) ?_
    refine uniform_cons (uniform_str _) ?_
    refine uniform_cons (uniform_str _) ?_
    refine uniform_cons (uniform_str _) ?_
    refine uniform_cons (uniform_bool _) ?_
    refine uniform_cons (uniform_str _) ?_
    refine uniform_cons (uniform_str _) ?_
    refine uniform_cons (uniform_str _) ?_
    refine uniform_cons (uniform_str _) ?_
    refine uniform_cons (uniform_bool _) ?_
    refine uniform_cons (uniform_bool _) ?_
    refine uniform_cons (uniform_bool _) ?_
    exact uniform_none

theorem C108_registerRequest : Merges RegisterRequest.unmarshal := by
  refine merges_of (fields := RegisterRequest.fields) ?_ ?_
  · refine forall_field (sane_msg (SaneDec.any ClientMeta.sane) (fun _ _ => trivial) fun _ _ _ _ => trivial) ?_
    exact forall_none
  · refine uniform_cons (uniform_msg _ _ _) ?_
    exact uniform_none

/-- What an encoder wrote, followed by anything that can be read into the message, is the
message with that read into it. -/
theorem C108_written {M : Type} {marshal : M → Option Str} {size : M → Nat} {unmarshal : M → Str → Out M} {Ok : M → Prop}
    {new m x : M} {d : Str} (hf : Faithful marshal size (unmarshal new) Ok) (hm : Merges unmarshal) (h : Ok m)
    (hl : size m + d.length < 2 ^ 63) (hd : unmarshal m d = .ok x) :
    ∃ e, marshal m = some e ∧ unmarshal new (e ++ d) = .ok x := by
  obtain ⟨e, h1, h2, h3⟩ := hf.roundtrip m h (by omega)
  exact ⟨e, h1, (hm new m e d (by rw [List.length_append]; omega) h3).trans hd⟩

/-- A token, then a piece that sets the subject of its metadata and adds an actor. -/
example : ∃ e x, Demo.wireToken.marshal = some e ∧
    Token.unmarshal {} (e ++ [34, 5, 18, 3, 115, 117, 98, 74, 3, 18, 1, 99]) = .ok x ∧
    x.metadata = some { issuer := g!"i", subject := g!"sub", expiresAt := 5 } ∧ x.issuer = g!"https://as.example" ∧
    x.actor.length = 3 := by
  obtain ⟨e, h1, h2⟩ := C108_written C52_token C108_token Demo.wireToken_ok (by decide) (d := [34, 5, 18, 3, 115, 117, 98, 74, 3, 18, 1, 99]) rfl
  exact ⟨e, _, h1, h2, rfl, rfl, rfl⟩

/-- What cannot be read alone may be read with what follows; the law asks for the former. -/
example : GrantDeviceCode.unmarshal {} [10, 2, 65] = .err ∧
    GrantDeviceCode.unmarshal {} ([10, 2, 65] ++ [66]) = .ok { deviceCode := g!"AB" } := ⟨rfl, rfl⟩

end Verif.Props
