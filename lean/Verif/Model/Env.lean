import Verif.Go.Str

/-!
External pure functions used by the code.  They are parameters of the model:
every theorem quantifies over them (hash functions are not inverted, URL syntax
is whatever `net/url` accepts).
-/
namespace Verif

/-- Claims of a DPoP proof (sdk/dpop/claims.go:20-26); `iat` is a uint64. -/
structure ProofClaims where
  jti : Str
  htm : Str
  htu : Str
  iat : Nat
  ath : Option Str := none
deriving DecidableEq, Repr

/-- A parsed compact JWS as seen through `token.Token` (sdk/token/jwt/token_adapter.go). -/
structure Proof where
  /-- `Type()`: the `typ` header, if any -/
  typ : Option Str
  /-- `PublicKey()`: the embedded `jwk` header, if any -/
  jwk : Option Str
  /-- `Claims(key, &out)`: the decoded claims when the signature verifies under
  `key` and the payload decodes, `none` otherwise -/
  claims : Str → Option ProofClaims

structure Env where
  /-- `url.ParseRequestURI(s)` succeeds -/
  parseRequestURI : Str → Bool
  /-- `crypto/sha256` digest (32 bytes, see `Env.WF`) -/
  sha256 : Str → Str
  /-- keyed BLAKE2b-256 of the in-memory stores, one key per store
  (`n` distinguishes the hard-coded keys), hex encoded -/
  blake : Nat → Str → Str
  /-- `generator.RequestURI.Validate(issuer, uri)` succeeds -/
  requestUriOk : Str → Str → Bool
  /-- `url.ParseRequestURI(s)` followed by `String()` -/
  urlString : Str → Option Str
  /-- `token.Verifier.Parse` of the DPoP verifier -/
  parseProof : Str → Option Proof
  /-- `PublicKeyThumbPrint()` of an embedded key -/
  thumbprint : Str → Option Str
  /-- unkeyed BLAKE2b-256, used for DPoP identifiers -/
  blakeSum : Str → Str

/-- Facts about the external functions that some theorems use. -/
structure Env.WF (E : Env) : Prop where
  /-- SHA-256 digests have 32 bytes -/
  sha256_len : ∀ s, (E.sha256 s).length = 32

end Verif
