import Verif.Spec.Token
import Verif.Model.ClientAuth

/-!
Vocabulary for the error codes of client authentication: the reasons to refuse a client, and the codes that RFC 6749
section 5.2 and RFC 7521 section 4.2.1 prescribe for them.
-/
namespace Verif.Spec
open Verif.ClientAuth

inductive AuthReason where
  /-- no request, another kind of assertion, or no assertion -/
  | missing
  /-- not an assertion -/
  | malformed
  /-- claims are missing, contradict one another, or have expired -/
  | claims
  /-- nobody knows the client -/
  | unknown
  /-- no keys are registered for it, or unreadable ones -/
  | keys
  /-- no key that may sign verifies the signature -/
  | signature
  /-- the store of clients failed -/
  | broken
deriving DecidableEq, Repr

/-- The code of RFC 6749 section 5.2 and RFC 7521 section 4.2.1. -/
def AuthReason.prescribed : AuthReason → ErrCode
  | .missing => .invalidRequest
  | .malformed => .invalidClient
  | .claims => .invalidClient
  | .unknown => .invalidClient
  | .keys => .invalidClient
  | .signature => .invalidClient
  | .broken => .serverError

/-- The code that is given for assertions signed with a private key. -/
def AuthReason.given : AuthReason → ErrCode
  | .missing => .invalidRequest
  | .malformed => .invalidRequest
  | .claims => .invalidRequest
  | .unknown => .invalidClient
  | .keys => .invalidClient
  | .signature => .invalidClient
  | .broken => .serverError

/-- A refusal with a code. -/
def toldCode (c : ErrCode) : AuthResult := ⟨some { error := some ⟨c, none⟩, client := none }, true⟩

/-- The request carries an assertion of this type. -/
def Asserts (req : Option AuthReq) (ty a : Str) : Prop :=
  ∃ q, req = some q ∧ q.assertionType = some ty ∧ q.assertion = some a ∧ a ≠ []

/-- The assertion is a signed object that makes these claims. -/
def Claims (P : Parsers) (req : Option AuthReq) (t : Jose.Jws) (c : PrivClaims) : Prop :=
  ∃ a, Asserts req g!"urn:ietf:params:oauth:client-assertion-type:jwt-bearer" a ∧ P.parse a = some t ∧ P.privClaims t.payload = some c

/-- Why an assertion signed with a private key is to be refused, given what was learnt from the clock and the store. -/
inductive PrivReason (P : Parsers) (req : Option AuthReq) (tr : List Ev) : AuthReason → Prop
  | missing : (∀ a, ¬ Asserts req g!"urn:ietf:params:oauth:client-assertion-type:jwt-bearer" a) → PrivReason P req tr .missing
  | malformed (a : Str) : Asserts req g!"urn:ietf:params:oauth:client-assertion-type:jwt-bearer" a →
      (∀ t c, ¬ Claims P req t c) → PrivReason P req tr .malformed
  | incomplete (t : Jose.Jws) (c : PrivClaims) : Claims P req t c →
      c.iss = [] ∨ c.sub = [] ∨ c.aud = [] ∨ c.jti = [] ∨ c.exp = 0 ∨ c.iss ≠ c.sub → PrivReason P req tr .claims
  | expired (t : Jose.Jws) (c : PrivClaims) (now : Nat) : Claims P req t c → ⟨.now, now⟩ ∈ tr → c.exp < seconds now →
      PrivReason P req tr .claims
  | unknown (id : Str) : ⟨.clientsGet id, .error .notFound⟩ ∈ tr → PrivReason P req tr .unknown
  | keys (id : Str) (cl : Client) : ⟨.clientsGet id, .ok (some cl)⟩ ∈ tr → cl.jwks = [] ∨ P.jwks cl.jwks = none →
      PrivReason P req tr .keys
  | signature (t : Jose.Jws) (c : PrivClaims) (id : Str) (cl : Client) (ks : List Jose.Jwk) : Claims P req t c →
      ⟨.clientsGet id, .ok (some cl)⟩ ∈ tr → cl.jwks ≠ [] → P.jwks cl.jwks = some ks →
      (∀ k ∈ ks, k.use ≠ g!"enc" → t.verifies k = false) → PrivReason P req tr .signature
  | broken (id : Str) : ⟨.clientsGet id, .error .other⟩ ∈ tr → PrivReason P req tr .broken

/-- What makes an attestation acceptable: it names a confirmation key and was signed by a client that is registered. -/
structure Attests (P : Parsers) (tr : List Ev) (att : Str) (t : Jose.Jws) (c : AttClaims) (key : Option Jose.Jwk) : Prop where
  parsed : P.parse att = some t
  claims : P.attClaims t.payload = some c
  key : c.cnf = some key
  mandatory : c.iss ≠ [] ∧ c.sub ≠ [] ∧ c.exp ≠ 0
  current : ∃ now ∈ tr, ∃ now' ∈ tr, ∃ n n', now = ⟨.now, n⟩ ∧ now' = ⟨.now, n'⟩ ∧ seconds n ≤ c.exp ∧ c.nbf ≤ seconds n'
  signed : ∃ cl ks, ⟨.clientsGet c.iss, .ok (some cl)⟩ ∈ tr ∧ cl.jwks ≠ [] ∧ P.jwks cl.jwks = some ks ∧
    ∃ k ∈ ks, k.use ≠ g!"enc" ∧ t.verifies k = true

/-- The proof of possession is signed with the key and makes all claims. -/
structure Possesses (P : Parsers) (pop : Str) (key : Jose.Jwk) (c : PopClaims) : Prop where
  signed : ∃ t, P.parse pop = some t ∧ t.verifies key = true ∧ P.popClaims t.payload = some c
  mandatory : c.iss ≠ [] ∧ c.exp ≠ 0 ∧ c.jti ≠ [] ∧ c.aud ≠ []

end Verif.Spec
