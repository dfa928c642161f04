import Verif.Model.Hashes
import Verif.Spec.System
import Verif.Props.Lib
import Verif.Props.Verifiable
import Mathlib.Data.Set.Finite.List

/-!
The theorems hold for every hash function; here are the ones the code uses (C114).
What other theorems assume of hash functions holds for them, except that they cannot be free
of collisions: for this reason the theorems assume that only of the objects of a history.
-/
namespace Verif.Hashes

theorem hex_length (s : Str) : (hex s).length = 2 * s.length := by
  induction s with
  | nil => rfl
  | cons b s ih => simp [hex, ih]; omega

/-- A statement about all bytes. -/
theorem every_byte {P : UInt8 → Prop} (h : ∀ n : Fin 256, P (UInt8.ofNat n)) (b : UInt8) : P b := by
  have := h ⟨b.toNat, b.toNat_lt⟩
  rwa [UInt8.ofNat_toNat] at this

theorem digits_mem (b : UInt8) : digit (b / 16) ∈ g!"0123456789abcdef" ∧ digit (b % 16) ∈ g!"0123456789abcdef" :=
  every_byte (P := fun b => digit (b / 16) ∈ g!"0123456789abcdef" ∧ digit (b % 16) ∈ g!"0123456789abcdef")
    (by decide +kernel) b

theorem hex_mem (s : Str) : ∀ c ∈ hex s, c ∈ g!"0123456789abcdef" := by
  induction s with
  | nil => simp [hex]
  | cons b s ih =>
    intro c hc
    simp only [hex, List.mem_cons] at hc
    rcases hc with rfl | rfl | hc
    · exact (digits_mem b).1
    · exact (digits_mem b).2
    · exact ih c hc

/-- What two hexadecimal digits stand for. -/
def undigit (c : UInt8) : UInt8 := if c < 58 then c - 48 else c - 87

theorem undigit_hex (b : UInt8) : undigit (digit (b / 16)) * 16 + undigit (digit (b % 16)) = b :=
  every_byte (P := fun b => undigit (digit (b / 16)) * 16 + undigit (digit (b % 16)) = b) (by decide +kernel) b

theorem hex_injective : Function.Injective hex := by
  intro s
  induction s with
  | nil => intro t h; cases t with
    | nil => rfl
    | cons b t => simp [hex] at h
  | cons a s ih =>
    intro t h
    cases t with
    | nil => simp [hex] at h
    | cons b t =>
      simp only [hex, List.cons.injEq] at h
      obtain ⟨h1, h2, h3⟩ := h
      rw [ih h3, ← undigit_hex a, ← undigit_hex b, h1, h2]

instance : Finite UInt8 := Finite.of_injective (fun b : UInt8 => b.toBitVec.toFin) (by
  intro a b h
  exact UInt8.toBitVec_inj.1 (BitVec.toFin_inj.1 h))

/-- A function to strings of one length collides. -/
theorem collides (f : Str → Str) (n : Nat) (hf : ∀ s, (f s).length = n) : ∃ a b, a ≠ b ∧ f a = f b := by
  by_contra h
  have inj : Function.Injective f := fun a b hab => by
    by_contra hne
    exact h ⟨a, b, hne, hab⟩
  have hfin : (Set.range f).Finite := (List.finite_length_eq UInt8 n).subset (by
    rintro _ ⟨s, rfl⟩; exact hf s)
  exact Set.infinite_range_of_injective inj hfin

end Verif.Hashes

namespace Verif.Props
open Verif.Spec Verif.Lib Verif.Hashes

variable (parseProof : Str → Option Proof) (thumbprint : Str → Option Str)

/-- **C114** (digests). The functions of the code satisfy what other theorems assume: the
SHA-256 digests have 32 bytes, and so have the tags of verifiable tokens. -/
theorem C114_assumptions : (env parseProof thumbprint).WF ∧ Tag32 crypto :=
  ⟨⟨Go.sha256_length⟩, Go.hmacSha256_length⟩

/-- **C114** (PKCE). A pair generated by the library passes the length checks of both
endpoints, and the recomputation of the challenge at the token endpoint. -/
theorem C114_pkce (random : Str) (hr : random.length = 96) (cl : Client) (g : GrantCode) (ar : AuthzRequest)
    (hg : g.codeVerifier = (codeVerifier (env parseProof thumbprint) random).1)
    (hc : ar.codeChallenge = (codeVerifier (env parseProof thumbprint) random).2)
    (hm : ar.codeChallengeMethod = g!"S256") (hu : ar.redirectUri = g.redirectUri)
    (hreg : MemFold g.redirectUri cl.redirectUris) :
    ar.codeChallenge = Go.b64 (Go.sha256 g.codeVerifier) ∧ g.codeVerifier.length = 128 ∧
      ar.codeChallenge.length = 43 ∧ TokenSvc.codeChecks (env parseProof thumbprint) cl g ar = none := by
  have h := C48_pair_accepted _ (C114_assumptions parseProof thumbprint).1 random hr cl g ar hg hc hm hu hreg
  refine ⟨by rw [hc, hg]; rfl, ?_, h.2.2⟩
  rw [hg]; simp [codeVerifier, Go.b64_length, hr]

/-- A pair of the library for 96 bytes of zeros; the digest is computed. -/
example :
    let pair := codeVerifier (env (fun _ => none) fun _ => none) (List.replicate 96 0)
    pair = (List.replicate 128 65, g!"tqw8wQOGMxx2XwTwQcFH0PJ48q7Y6qAh4tAFf8b2_54") := by decide +kernel

example : TokenSvc.codeChecks (env (fun _ => none) fun _ => none)
    { clientId := g!"c", redirectUris := [g!"https://client.example/cb"] }
    { code := g!"code", codeVerifier := (codeVerifier (env (fun _ => none) fun _ => none) (List.replicate 96 0)).1,
      redirectUri := g!"https://client.example/cb" }
    { codeChallenge := (codeVerifier (env (fun _ => none) fun _ => none) (List.replicate 96 0)).2,
      codeChallengeMethod := g!"S256", redirectUri := g!"https://client.example/cb" } = none :=
  (C114_pkce _ _ _ (by decide) _ _ _ rfl rfl rfl rfl ⟨_, List.mem_singleton.2 rfl, rfl⟩).2.2.2

/-- **C114** (tokens). A value is generated for every token type, secret, identifier and
nonce, and the verifier extracts the identifier from it. -/
theorem C114_tokens (secret uuid nonce : Str) (ty : TokenType) (hu : uuid.length = 16) (hn : nonce.length = 12) :
    ∃ out, Verifiable.tokenGenerate crypto secret (some uuid) (some nonce) (some ty) = some out ∧
      Verifiable.extract crypto secret out = .ok uuid :=
  C46_token_types crypto Go.hmacSha256_length secret uuid nonce ty hu hn

/-- The identifier of the test vectors (sdk/token/verifiable/uuid_test.go). -/
example : ∃ out, Verifiable.tokenGenerate crypto g!"my-very-secret-key-for-mac"
      (some [0x2f, 0x82, 0x82, 0xcb, 0xe2, 0xf9, 0x49, 0x6f, 0xb1, 0x44, 0xc0, 0xaa, 0x4c, 0xed, 0x56, 0xdb])
      (some g!"twelve bytes") (some .accessToken) = some out ∧
    Verifiable.extract crypto g!"my-very-secret-key-for-mac" out =
      .ok [0x2f, 0x82, 0x82, 0xcb, 0xe2, 0xf9, 0x49, 0x6f, 0xb1, 0x44, 0xc0, 0xaa, 0x4c, 0xed, 0x56, 0xdb] :=
  C114_tokens _ _ _ _ rfl rfl

/-- **C114** (store keys). The keyed hashes of the stores are made with keys that
`blake2b.New256` takes, so the stores do not crash; a storage key is written with 64
hexadecimal digits, whatever the issuer and the name. -/
theorem C114_store_keys (k : Kind) (iss name : Str) :
    (∀ n, (storeKey n).length ≤ 64) ∧ (keyOf (env parseProof thumbprint) k iss name).length = 64 ∧
      ∀ c ∈ keyOf (env parseProof thumbprint) k iss name, c ∈ g!"0123456789abcdef" := by
  have key : ∃ n s, keyOf (env parseProof thumbprint) k iss name = hex (Go.blake2b256 (storeKey n) s) := by
    cases k <;> exact ⟨_, _, rfl⟩
  refine ⟨fun n => ?_, ?_⟩
  · match n with
    | 0 => decide
    | 1 => decide
    | 2 => decide
    | n + 3 => exact (by decide : (storeKey 3).length ≤ 64)
  · obtain ⟨n, s, h⟩ := key
    rw [h]
    exact ⟨by rw [hex_length, Go.blake2b256_length], hex_mem _⟩

/-- The storage key of a code, computed. -/
example : keyOf (env (fun _ => none) fun _ => none) .code g!"http://127.0.0.1:8080" g!"1234567890" =
    g!"0e8da1a4c35c08961cde30c665c5cd46050812ea9d5710aba1c7de4f8ab8c515" := by decide +kernel

/-- What is hashed for an object, before the issuer: the key and the label of its kind. -/
def labelOf : Kind → Str × Str
  | .code => (storeKey 0, g!"solid:authorization-code-sessions:v1")
  | .request => (storeKey 1, g!"solid:authorization-requests:v1")
  | .userCode => (storeKey 2, g!"solid:device-authorization-user-code:v1")
  | .deviceCode => (storeKey 2, g!"solid:device-authorization-device-code:v1")
  | .token => (storeKey 3, g!"solid:token:v1")

/-- **C114** (clashes). Two objects share a storage key exactly when the BLAKE2b digests of
label, issuer and name are equal, under the key of the store. -/
theorem C114_clash_iff (k : Kind) (iss name iss' name' : Str) :
    keyOf (env parseProof thumbprint) k iss name = keyOf (env parseProof thumbprint) k iss' name' ↔
      Go.blake2b256 (labelOf k).1 ((labelOf k).2 ++ (iss ++ name)) =
        Go.blake2b256 (labelOf k).1 ((labelOf k).2 ++ (iss' ++ name')) := by
  have e : ∀ i n, keyOf (env parseProof thumbprint) k i n =
      hex (Go.blake2b256 (labelOf k).1 ((labelOf k).2 ++ (i ++ n))) := by
    intro i n
    rw [← List.append_assoc]
    cases k <;> rfl
  rw [e, e]
  exact hex_injective.eq_iff

/-- Issuer and name are hashed without a mark between them (`C33_violated`). -/
example : keyOf (env (fun _ => none) fun _ => none) .token g!"https://a" g!"bc" =
    keyOf (env (fun _ => none) fun _ => none) .token g!"https://ab" g!"c" :=
  (C114_clash_iff _ _ .token _ _ _ _).2 rfl

/-- **C114** (collisions). No store is free of clashes: under every issuer there are two
names of every kind with the same storage key; and there are two proof identifiers that
are remembered as one. -/
theorem C114_collisions (k : Kind) (iss : Str) :
    (∃ name name', name ≠ name' ∧
      keyOf (env parseProof thumbprint) k iss name = keyOf (env parseProof thumbprint) k iss name') ∧
    ∃ jti jti', jti ≠ jti' ∧
      DPoP.proofId (env parseProof thumbprint) jti = DPoP.proofId (env parseProof thumbprint) jti' := by
  refine ⟨collides _ 64 fun name => (C114_store_keys parseProof thumbprint k iss name).2.1, ?_⟩
  exact collides _ 43 fun jti => by
    show (Go.b64 (Go.blake2b256 [] jti)).length = 43
    rw [Go.b64_length, Go.blake2b256_length]

/-- **C114** (pairwise subjects). A pairwise subject has 43 characters, whatever the sector
and the subject, and two users of one sector may share one. -/
theorem C114_pairwise (salt sec : Str) (h : 16 ≤ salt.length) (h' : salt.length ≤ 64) :
    (∀ sub id, pairwise Go.blake2b256 salt sec sub = some id → id.length = 43) ∧
    ∃ sub sub' id, Go.trimSpace sub ≠ Go.trimSpace sub' ∧ pairwise Go.blake2b256 salt sec sub = some id ∧
      pairwise Go.blake2b256 salt sec sub' = some id := by
  have val : ∀ sub, Go.trimSpace sub ≠ [] →
      pairwise Go.blake2b256 salt sec sub = some (Go.b64 (Go.blake2b256 salt (sec ++ Go.trimSpace sub))) := by
    intro sub hs
    unfold pairwise
    rw [if_neg (by omega)]
    simp only
    rw [if_neg (by simpa using hs), if_neg (by omega)]
  constructor
  · intro sub id hid
    by_cases hs : Go.trimSpace sub = []
    · unfold pairwise at hid
      rw [if_neg (by omega)] at hid
      simp [hs] at hid
    · rw [val sub hs] at hid
      cases hid
      rw [Go.b64_length, Go.blake2b256_length]
  · obtain ⟨a, b, hne, hab⟩ := collides (fun s => Go.blake2b256 salt (sec ++ 120 :: hex s)) 32
      fun s => Go.blake2b256_length ..
    have ht : ∀ s, Go.trimSpace (120 :: hex s) = 120 :: hex s := by
      intro s
      have plain : ∀ c ∈ 120 :: g!"0123456789abcdef", c < 0x80 ∧ Go.isSpace [c] = false := by decide
      refine Go.trimSpace_ascii fun c hc => plain c ?_
      rcases List.mem_cons.1 hc with rfl | hc
      · exact List.mem_cons_self ..
      · exact List.mem_cons_of_mem _ (hex_mem s c hc)
    refine ⟨120 :: hex a, 120 :: hex b, _, ?_, val _ (by rw [ht]; simp), ?_⟩
    · rw [ht, ht]
      intro e
      simp at e
      exact hne (hex_injective e)
    · rw [val _ (by rw [ht]; simp), ht, ht, hab]

/-- Tests of `sdk/pairwise` use this salt and subject. -/
example : pairwise Go.blake2b256 (List.replicate 16 0) [] g!"test" =
    some g!"Lv66CmN2nfnAUDkK8oOZ0BZ9bUgMnf7h4c2cTFDxJX0" := by decide +kernel

end Verif.Props
