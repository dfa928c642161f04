import Verif.Model.Timestamp

/-! Signed timestamps as their readers check them. -/
namespace Verif.Spec
open Verif.Timestamp

/-- The eight bytes are the number in two's complement, most significant byte first. -/
def EightBytes (t : Int) (raw : Str) : Prop :=
  raw.length = 8 ∧ ((raw.foldl (fun a b => 256 * a + b.toNat) 0 : Nat) : Int) = t % 2 ^ 64

/-- The message that a signed timestamp is about. -/
def IsMessage (issuer nonce : Str) (t : Int) (m : Str) : Prop :=
  ∃ raw, EightBytes t raw ∧ m = g!"signed-timestamp-protocol-v1" ++ issuer ++ nonce ++ raw

/-- A reader who knows the public key accepts the document: a nonce of eight bytes and a signature
of the message. -/
def Verified (ed : Ed25519) (pub : Str) (d : Doc) : Prop :=
  d.scheme = g!"ed25519" ∧ -2 ^ 63 ≤ d.timestamp ∧ d.timestamp < 2 ^ 63 ∧
  ∃ nonce sig m, nonce.length = 8 ∧ d.nonce = Go.b64 nonce ∧ d.proof = Go.b64 sig ∧
    IsMessage d.issuer nonce d.timestamp m ∧ ed.verify pub m sig = true

/-- The same without a look at the length of the nonce. -/
def VerifiedLoosely (ed : Ed25519) (pub : Str) (d : Doc) : Prop :=
  d.scheme = g!"ed25519" ∧ -2 ^ 63 ≤ d.timestamp ∧ d.timestamp < 2 ^ 63 ∧
  ∃ nonce sig m, d.nonce = Go.b64 nonce ∧ d.proof = Go.b64 sig ∧
    IsMessage d.issuer nonce d.timestamp m ∧ ed.verify pub m sig = true

/-- What is signed verifies. -/
def Ed25519Correct (ed : Ed25519) (pub priv : Str) : Prop := ∀ m, ed.verify pub m (ed.sign priv m) = true

end Verif.Spec
