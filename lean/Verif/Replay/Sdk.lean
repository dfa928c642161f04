import Verif.Replay.Basic
import Verif.Model.Hashes
import Verif.Model.StringArray
import Verif.Model.TokenGen
import Verif.Model.ClientAuth
import Verif.Model.Sign
import Verif.Model.RequestObject
import Verif.Props.ProofUri

/-! The tests of `sdk` and `server/clientauthentication`, replayed on the model (see `Verif.Replay.Basic`),
with the hash functions of the code. -/
namespace Verif.Replay

/-- The tests read the clock; here it shows this time. -/
def clock : Nat := 1700000000 * 1000000000

/-! ### `Test_defaultVerifier_Verify` (sdk/dpop/verifier_test.go) -/

/-- The mocks of the tests of the verifier: the token that is parsed, and its thumbprint. -/
def dpopEnv (p : Option Proof) (thumb : Option Str) : Env :=
  Hashes.env (fun s => if s = g!"fake-proof" then p else none) (fun _ => thumb)

/-- A token with an embedded key and these claims. -/
def proofOf (c : Option ProofClaims) : Proof :=
  { typ := some DPoP.headerType, jwk := some g!"key", claims := fun _ => c }

/-- The claims of the tests. -/
def goodClaims (ath : Option Str) : ProofClaims :=
  { jti := g!"non-existent-jti", htm := g!"GET", htu := g!"https://server.com/resource", iat := 1700000000 - 1, ath := ath }

/-- The identifier the tests expect for these claims. -/
def goodId : Str := g!"oeB2o7_-r7BslYpxZtbpMhlOJIGscF82i8E5LRBUkzk"

-- line 51: nil
example : runs clock (DPoP.verify (dpopEnv (none) (none))
    { htm := g!"", htu := g!"", proof := g!"" })
    [] id none := by decide +kernel

-- line 55: htm is blank
example : runs clock (DPoP.verify (dpopEnv (none) (none))
    { htm := g!"", htu := g!"", proof := g!"" })
    [] id none := by decide +kernel

-- line 62: htu is blank
example : runs clock (DPoP.verify (dpopEnv (none) (none))
    { htm := g!"GET", htu := g!"", proof := g!"" })
    [] id none := by decide +kernel

-- line 70: proof is blank
example : runs clock (DPoP.verify (dpopEnv (none) (none))
    { htm := g!"GET", htu := g!"https://server.com/resource", proof := g!"" })
    [] id none := by decide +kernel

-- line 79: htu is invalid
example : runs clock (DPoP.verify (dpopEnv (none) (none))
    { htm := g!"GET", htu := g!"http//server.com/resource", proof := g!"fake-proof" })
    [] id none := by decide +kernel

-- line 88: htm is invalid
example : runs clock (DPoP.verify (dpopEnv (none) (none))
    { htm := g!"POUET", htu := g!"https://server.com/resource", proof := g!"fake-proof" })
    [] id none := by decide +kernel

-- line 97: proof is syntaxically invalid
example : runs clock (DPoP.verify (dpopEnv (none) (none))
    { htm := g!"GET", htu := g!"https://server.com/resource", proof := g!"fake-proof" })
    [] id none := by decide +kernel

-- line 109: token is nil
example : runs clock (DPoP.verify (dpopEnv (none) (none))
    { htm := g!"GET", htu := g!"https://server.com/resource", proof := g!"fake-proof" })
    [] id none := by decide +kernel

-- line 121: invalid token headers
example : runs clock (DPoP.verify (dpopEnv (some { proofOf none with typ := none }) (none))
    { htm := g!"GET", htu := g!"https://server.com/resource", proof := g!"fake-proof" })
    [] id none := by decide +kernel

-- line 134: unable to extract claims
example : runs clock (DPoP.verify (dpopEnv (some (proofOf none)) (none))
    { htm := g!"GET", htu := g!"https://server.com/resource", proof := g!"fake-proof" })
    [] id none := by decide +kernel

-- line 149: unable to validate claims
example : runs clock (DPoP.verify (dpopEnv (some (proofOf (some { jti := [], htm := [], htu := [], iat := 0 }))) (none))
    { htm := g!"GET", htu := g!"https://server.com/resource", proof := g!"fake-proof" })
    [] id none := by decide +kernel

-- line 164: proof storage error
example : runs clock (DPoP.verify (dpopEnv (some (proofOf (some (goodClaims none)))) (none))
    { htm := g!"GET", htu := g!"https://server.com/resource", proof := g!"fake-proof" })
    [.dpopExists goodId (.error .other)] id none := by decide +kernel

-- line 190: proof found in storage
example : runs clock (DPoP.verify (dpopEnv (some (proofOf (some (goodClaims none)))) (none))
    { htm := g!"GET", htu := g!"https://server.com/resource", proof := g!"fake-proof" })
    [.dpopExists goodId (.ok true)] id none := by decide +kernel

-- line 216: proof registration error
example : runs clock (DPoP.verify (dpopEnv (some (proofOf (some (goodClaims none)))) (none))
    { htm := g!"GET", htu := g!"https://server.com/resource", proof := g!"fake-proof" })
    [.dpopExists goodId (.ok false), .dpopRegister goodId (.error .other)] id none := by decide +kernel

-- line 243: confirmation generation error
example : runs clock (DPoP.verify (dpopEnv (some (proofOf (some (goodClaims none)))) (none))
    { htm := g!"GET", htu := g!"https://server.com/resource", proof := g!"fake-proof" })
    [.dpopExists goodId (.ok false), .dpopRegister goodId (.ok ())] id none := by decide +kernel

-- line 271: error with token - token not bound
example : runs clock (DPoP.verify (dpopEnv (some (proofOf (some (goodClaims none)))) (some g!"fake-confirmation"))
    { htm := g!"GET", htu := g!"https://server.com/resource", proof := g!"fake-proof", tokenValue := some g!"1234567890",
      tokenConfirmation := some g!"0ZcOCORZNYy-DWpqq30jZyJGHTN0d2HglBV3uiguA4I" })
    [.dpopExists goodId (.ok false), .dpopRegister goodId (.ok ())] id none := by decide +kernel

-- line 303: error with token - token mismatch
example : runs clock (DPoP.verify (dpopEnv (some (proofOf (some (goodClaims (some []))))) (some g!"fake-confirmation"))
    { htm := g!"GET", htu := g!"https://server.com/resource", proof := g!"fake-proof", tokenValue := some g!"another-token",
      tokenConfirmation := some g!"0ZcOCORZNYy-DWpqq30jZyJGHTN0d2HglBV3uiguA4I" })
    [.dpopExists goodId (.ok false), .dpopRegister goodId (.ok ())] id none := by decide +kernel

-- line 336: error with token - proof mismatch
example : runs clock (DPoP.verify (dpopEnv (some (proofOf (some (goodClaims (some g!"x3Xnt1ft5jDNCqERO9ECZhqziCnKUqZCKreChi8mhkY"))))) (some g!"fake-confirmation"))
    { htm := g!"GET", htu := g!"https://server.com/resource", proof := g!"fake-proof", tokenValue := some g!"1234567890",
      tokenConfirmation := some g!"0ZcOCORZNYy-DWpqq30jZyJGHTN0d2HglBV3uiguA4I" })
    [.dpopExists goodId (.ok false), .dpopRegister goodId (.ok ())] id none := by decide +kernel

-- line 369: valid
example : runs clock (DPoP.verify (dpopEnv (some (proofOf (some (goodClaims none)))) (some g!"fake-confirmation"))
    { htm := g!"GET", htu := g!"https://server.com/resource", proof := g!"fake-proof" })
    [.dpopExists goodId (.ok false), .dpopRegister goodId (.ok ())] id (some g!"fake-confirmation") := by decide +kernel

-- line 398: valid with token
example : runs clock (DPoP.verify (dpopEnv (some (proofOf (some (goodClaims (some g!"x3Xnt1ft5jDNCqERO9ECZhqziCnKUqZCKreChi8mhkY"))))) (some g!"fake-confirmation"))
    { htm := g!"GET", htu := g!"https://server.com/resource", proof := g!"fake-proof", tokenValue := some g!"1234567890",
      tokenConfirmation := some g!"fake-confirmation" })
    [.dpopExists goodId (.ok false), .dpopRegister goodId (.ok ())] id (some g!"fake-confirmation") := by decide +kernel

/-! ### `Test_defaultVerifier_validateProofHeader` and `Test_defaultVerifier_extractProofClaims`

The two functions are one in the model; nil tokens are not modelled. -/

-- line 478: type error
example : (DPoP.open_ { typ := none, jwk := none, claims := fun _ => none }).isSome = false := by decide

-- line 489: invalid type
example : (DPoP.open_ { typ := some g!"foo", jwk := none, claims := fun _ => none }).isSome = false := by decide

-- line 500: public key error
example : (DPoP.open_ { typ := some g!"dpop+jwt", jwk := none, claims := fun _ => none }).isSome = false := by decide

-- line 512: nil public key
example : (DPoP.open_ { typ := some g!"dpop+jwt", jwk := none, claims := fun _ => none }).isSome = false := by decide

-- line 524: valid
example : (DPoP.open_ { typ := some g!"dpop+jwt", jwk := some g!"key", claims := fun _ => some { jti := [], htm := [], htu := [], iat := 0 } }).isSome = true := by decide

-- line 575: public key error
example : (DPoP.open_ { typ := some g!"dpop+jwt", jwk := none, claims := fun _ => none }).isSome = false := by decide

-- line 586: claims extraction error
example : (DPoP.open_ { typ := some g!"dpop+jwt", jwk := some g!"key", claims := fun _ => none }).isSome = false := by decide

-- line 598: valid
example : (DPoP.open_ { typ := some g!"dpop+jwt", jwk := some g!"key", claims := fun _ => some { jti := [], htm := [], htu := [], iat := 0 } }).isSome = true := by decide

/-! ### `Test_defaultVerifier_validateProofClaims`

Within `verify`: the claims are valid if their identifier is looked up. Nil claims are not modelled. -/

-- line 644: nil
example : runs clock (DPoP.verify (dpopEnv (some (proofOf (some { jti := [], htm := [], htu := [], iat := 0 }))) none)
    { htm := g!"", htu := g!"", proof := g!"fake-proof" })
    [] id none := by decide +kernel

-- line 648: htm blank
example : runs clock (DPoP.verify (dpopEnv (some (proofOf (some { jti := [], htm := [], htu := [], iat := 0 }))) none)
    { htm := g!"", htu := g!"", proof := g!"fake-proof" })
    [] id none := by decide +kernel

-- line 655: htu blank
example : runs clock (DPoP.verify (dpopEnv (some (proofOf (some { jti := [], htm := [], htu := [], iat := 0 }))) none)
    { htm := g!"POST", htu := g!"", proof := g!"fake-proof" })
    [] id none := by decide +kernel

-- line 671: http method mismatch
example : runs clock (DPoP.verify (dpopEnv (some (proofOf (some { jti := [], htm := g!"POST", htu := [], iat := 0 }))) none)
    { htm := g!"GET", htu := g!"https://server.com/resource", proof := g!"fake-proof" })
    [] id none := by decide +kernel

-- line 682: http scheme mismatch
example : runs clock (DPoP.verify (dpopEnv (some (proofOf (some { jti := [], htm := g!"POST", htu := g!"http://server.com/resource", iat := 0 }))) none)
    { htm := g!"POST", htu := g!"https://server.com/resource", proof := g!"fake-proof" })
    [] id none := by decide +kernel

-- line 694: expired proof
example : runs clock (DPoP.verify (dpopEnv (some (proofOf (some { jti := [], htm := g!"POST", htu := g!"https://server.com/resource", iat := 1700000000 - 86400 }))) none)
    { htm := g!"POST", htu := g!"https://server.com/resource", proof := g!"fake-proof" })
    [] id none := by decide +kernel

-- line 707: future proof
example : runs clock (DPoP.verify (dpopEnv (some (proofOf (some { jti := [], htm := g!"POST", htu := g!"https://server.com/resource", iat := 1700000000 + 86400 }))) none)
    { htm := g!"POST", htu := g!"https://server.com/resource", proof := g!"fake-proof" })
    [] id none := by decide +kernel

-- line 720: valid
example : runs clock (DPoP.verify (dpopEnv (some (proofOf (some { jti := g!"cool", htm := g!"POST", htu := g!"https://server.com/resource", iat := 1700000000 - 1 }))) none)
    { htm := g!"POST", htu := g!"https://server.com/resource", proof := g!"fake-proof" })
    [.dpopExists g!"BSi1fzwnJO33tN-kAj7eslyBNql4tgXxj3Em-21kzhE" (.ok true)] id none := by decide +kernel

/-! ### `Test_defaultProver_Prove` (sdk/dpop/prover_test.go) -/

-- line 48: nil
example : runs clock (Sign.prove (dpopEnv none none) Props.proofUrl (some fun _ => none) g!"" g!"" g!"jti" none) [] id none := by
  decide +kernel

-- line 52: nil signer
example : runs clock (Sign.prove (dpopEnv none none) Props.proofUrl none g!"" g!"" g!"jti" none) [] id none := by
  decide +kernel

-- line 59: blank htm
example : runs clock (Sign.prove (dpopEnv none none) Props.proofUrl (some fun _ => some g!"fake-token") g!"" g!"" g!"jti" none) [] id none := by
  decide +kernel

-- line 66: blank htu
example : runs clock (Sign.prove (dpopEnv none none) Props.proofUrl (some fun _ => some g!"fake-token") g!"GET" g!"" g!"jti" none) [] id none := by
  decide +kernel

-- line 74: invalid htu
example : runs clock (Sign.prove (dpopEnv none none) Props.proofUrl (some fun _ => some g!"fake-token") g!"GET" g!"https//server.com/resource" g!"jti" none) [] id none := by
  decide +kernel

-- line 82: invalid htm
example : runs clock (Sign.prove (dpopEnv none none) Props.proofUrl (some fun _ => some g!"fake-token") g!"POUET" g!"https://server.com/resource" g!"jti" none) [] id none := by
  decide +kernel

-- line 90: token signature error
example : runs clock (Sign.prove (dpopEnv none none) Props.proofUrl (some fun _ => none) g!"POST" g!"https://server.com/resource" g!"jti" none) [] id none := by
  decide +kernel

-- line 101: valid
example : runs clock (Sign.prove (dpopEnv none none) Props.proofUrl (some fun _ => some g!"fake-token") g!"POST" g!"https://server.com/resource" g!"jti" none) [] id (some g!"fake-token") := by
  decide +kernel

-- line 113: valid with token
example : runs clock (Sign.prove (dpopEnv none none) Props.proofUrl (some fun _ => some g!"fake-token") g!"POST" g!"https://server.com/resource" g!"jti" (some g!"1234567890")) [] id (some g!"fake-token") := by
  decide +kernel

/-! ### `Test_hashEncoder_Encode` (sdk/pairwise/hash_test.go) -/

-- line 38: nil
example : Lib.pairwise Go.blake2b256 (List.replicate 0 0) g!"" g!"" = none := by decide +kernel

-- line 42: salt too short
example : Lib.pairwise Go.blake2b256 (List.replicate 8 0) g!"" g!"" = none := by decide +kernel

-- line 51: blank subject
example : Lib.pairwise Go.blake2b256 (List.replicate 16 0) g!"" g!"    " = none := by decide +kernel

-- line 64: empty subject
example : Lib.pairwise Go.blake2b256 (List.replicate 16 0) g!"" g!"" = none := by decide +kernel

-- line 77: salt-16
example : Lib.pairwise Go.blake2b256 (List.replicate 16 0) g!"" g!"test" = some g!"Lv66CmN2nfnAUDkK8oOZ0BZ9bUgMnf7h4c2cTFDxJX0" := by decide +kernel

-- line 91: salt-32
example : Lib.pairwise Go.blake2b256 (List.replicate 32 0) g!"" g!"test" = some g!"9Y5Hy43EvYCR6v4Fu3bt4OJZg2AlCgwpwEc4dc_-o2w" := by decide +kernel

-- line 107: salt-64
example : Lib.pairwise Go.blake2b256 (List.replicate 64 0) g!"" g!"test" = some g!"CnoEuXsTY9vP37sOgKgf6Fzy3BXNAGjKRAOak_kI5Jg" := by decide +kernel

-- line 127: salt too long
example : Lib.pairwise Go.blake2b256 (List.replicate 72 0) g!"" g!"test" = none := by decide +kernel

-- line 147: alternative sector id
example : Lib.pairwise Go.blake2b256 (List.replicate 16 0) g!"http://backend.exmaple.com" g!"test" = some g!"OhB_oAEehjt6h3N_cfkrK-CoFhsOntVjhQrcxi0HnD4" := by decide +kernel

/-! ### `Test_UUIDGenerate`, `Test_UUID_Verify` (sdk/token/verifiable/uuid_test.go)

The nonces come from a seeded generator that is not modelled: they are read off the expected values. The last
generation is left out: its prefix is not ASCII, and the model leaves the case of other letters open. -/

def uuidSecret : Str := g!"my-very-secret-key-for-mac"

def uuidBytes : Str := [0x2f, 0x82, 0x82, 0xcb, 0xe2, 0xf9, 0x49, 0x6f, 0xb1, 0x44, 0xc0, 0xaa, 0x4c, 0xed, 0x56, 0xdb]

-- line 32: first generation
example : Verifiable.generate Hashes.crypto uuidSecret [] (some uuidBytes) (some [82, 253, 252, 7, 33, 130, 101, 79, 22, 63, 95, 15]) =
    some g!"1rEhxXi9mBwmkGpXxD4Njd_wHOKGDkYTeOIHSFg1vyoEtsoN7gxbzr5iA2qYWLZLSuJroVFELjREpWft1t" := by decide +kernel

-- line 39: second generation
example : Verifiable.generate Hashes.crypto uuidSecret [] (some uuidBytes) (some [154, 98, 29, 114, 149, 102, 199, 77, 16, 3, 124, 77]) =
    some g!"1rEhxXi9mBwmkGpXxD4Njd_YQbaiGsOHwcZlL6rxbiIEAnEMFSY1Wv0WEuz47xjuf7I6N70gUZqjc4hpoU" := by decide +kernel

-- line 46: first generation with prefix
example : Verifiable.generate Hashes.crypto uuidSecret [g!"at"] (some uuidBytes) (some [123, 187, 4, 7, 209, 226, 198, 73, 129, 133, 90, 216]) =
    some g!"at_1rEhxXi9mBwmkGpXxD4Njd_MLdlJaU0J9toBacx8jjPrecLJcS2L4x1L0ejj6yoXMBuSW4pIWyA3UQ4bVt" := by decide +kernel

-- line 53: second generation with prefix
example : Verifiable.generate Hashes.crypto uuidSecret [g!"et"] (some uuidBytes) (some [104, 29, 13, 134, 209, 233, 30, 0, 22, 121, 57, 203]) =
    some g!"et_1rEhxXi9mBwmkGpXxD4Njd_F1TuPP5aLrr1OShiZat5zeie1agvYviNETF61NFC3kolYRaRvKYmd9DgpRj" := by decide +kernel

-- line 60: third generation with bad prefix
example : Verifiable.generate Hashes.crypto uuidSecret [g!"et _"] (some uuidBytes) (some g!"twelve bytes") = none := by decide +kernel

-- `Test_UUIDGenerate_RandError`
example : Verifiable.generate Hashes.crypto uuidSecret [] (some uuidBytes) none = none := by decide +kernel

-- `Test_UUIDGenerate_SourceError`
example : Verifiable.generate Hashes.crypto uuidSecret [] none (some g!"twelve bytes") = none := by decide +kernel

-- line 125: valid
example : Verifiable.extract Hashes.crypto uuidSecret g!"1rEhxXi9mBwmkGpXxD4Njd_wHOKGDkYTeOIHSFg1vyoEtsoN7gxbzr5iA2qYWLZLSuJroVFELjREpWft1t" = .ok uuidBytes := by
  decide +kernel

-- line 140: valid with prefix
example : Verifiable.extract Hashes.crypto uuidSecret g!"at_1rEhxXi9mBwmkGpXxD4Njd_MLdlJaU0J9toBacx8jjPrecLJcS2L4x1L0ejj6yoXMBuSW4pIWyA3UQ4bVt" = .ok uuidBytes := by
  decide +kernel

-- line 155: valid with invalid prefix
example : Verifiable.extract Hashes.crypto uuidSecret g!"et__1rEhxXi9mBwmkGpXxD4Njd_F1TuPP5aLrr1OShjyGUkq9YeMXZrZjpnNAkfLorbsinjMDHdtItdsWstkmh" = .err := by
  decide +kernel

-- line 164: too short
example : Verifiable.extract Hashes.crypto uuidSecret g!"CDLDuzAwMDAtZ" = .err := by
  decide +kernel

-- line 173: invalid uuid base62
example : Verifiable.extract Hashes.crypto uuidSecret g!"1rEhxXi9m-wmkGpXxD4Njd_wHOKGDkYTeOIHSFgS9ul7cDrVX3ERymo5SfvLQH7HcuSNdpPTy2fAZKEynG" = .err := by
  decide +kernel

-- line 182: invalid signature base62
example : Verifiable.extract Hashes.crypto uuidSecret g!"1rEhxXi9mBwmkGpXxD4Njd_wHOKGDkYTeOIHSFgS9ul7cDrV-3ERymo5SfvLQH7HcuSNdpPTy2fAZKEynG" = .err := by
  decide +kernel

-- line 191: invalid signature
example : Verifiable.extract Hashes.crypto uuidSecret g!"1rEhxXi9mBwmkGpXxD4Njd_wHOKGDkYTeOIHSFgS9ul7cDrVX3ERymo5SfvLQH8KcuSNdpPTy2fAZKEynG" = .err := by
  decide +kernel

-- line 200: tampered prefix
example : Verifiable.extract Hashes.crypto uuidSecret g!"bad_1rEhxXi9mBwmkGpXxD4Njd_MLdlJaU0J9toBacxSJT3BQFDqhqt1XDKGc3Wo60WGYDKYG3jBkLtD7RK6TT" = .err := by
  decide +kernel

/-! ### Token generators (sdk/token) -/

/-- `is.URL`, which the model leaves open. -/
def isURL (s : Str) : Bool := (Url.parseRequestURI s).isSome

/-- The metadata of the tests. -/
def genMeta : TokenMeta :=
  { issuer := g!"http://localhost:8080", audience := g!"azertyuiop", clientId := g!"789456", subject := g!"test",
    scope := g!"openid", issuedAt := 1, notBefore := 2, expiresAt := 3601 }

/-- The metadata of the tests of client assertions. -/
def assertionMeta : TokenMeta :=
  { audience := g!"http://localhost:8080", issuer := g!"client-1", subject := g!"client-1", issuedAt := 1,
    expiresAt := 3601 }

-- access_token_test.go line 45: nil
example : runs clock (TokenGen.accessToken isURL (some fun _ => some g!"fake-token")
    none) [] id none := by decide +kernel

-- access_token_test.go line 49: blank jti
example : runs clock (TokenGen.accessToken isURL (some fun _ => some g!"fake-token")
    none) [] id none := by decide +kernel

-- access_token_test.go line 53: nil token id
example : runs clock (TokenGen.accessToken isURL (some fun _ => some g!"fake-token")
    (some {})) [] id none := by decide +kernel

-- access_token_test.go line 60: nil meta
example : runs clock (TokenGen.accessToken isURL (some fun _ => some g!"fake-token")
    (some { tokenId := g!"azerty" })) [] id none := by decide +kernel

-- access_token_test.go line 67: invalid meta
example : runs clock (TokenGen.accessToken isURL (some fun _ => some g!"fake-token")
    (some { tokenId := g!"azerty", metadata := some {} })) [] id none := by decide +kernel

-- access_token_test.go line 77: signer error
example : runs clock (TokenGen.accessToken isURL (some fun _ => none)
    (some { tokenId := g!"123456789", metadata := some genMeta })) [] id none := by decide +kernel

-- access_token_test.go line 100: valid
example : runs clock (TokenGen.accessToken isURL (some fun _ => some g!"fake-token")
    (some { tokenId := g!"123456789", metadata := some genMeta })) [] id (some g!"fake-token") := by decide +kernel

-- access_token_test.go line 123: valid with confirmation
example : runs clock (TokenGen.accessToken isURL (some fun _ => some g!"fake-token")
    (some { tokenId := g!"123456789", metadata := some genMeta, confirmation := some { jkt := g!"0ZcOCORZNYy-DWpqq30jZyJGHTN0d2HglBV3uiguA4I" } })) [] id (some g!"fake-token") := by decide +kernel

-- refresh_token_test.go line 45: nil
example : runs clock (TokenGen.refreshToken isURL (some fun _ => some g!"fake-token")
    none) [] id none := by decide +kernel

-- refresh_token_test.go line 49: blank jti
example : runs clock (TokenGen.refreshToken isURL (some fun _ => some g!"fake-token")
    none) [] id none := by decide +kernel

-- refresh_token_test.go line 53: nil token id
example : runs clock (TokenGen.refreshToken isURL (some fun _ => some g!"fake-token")
    (some {})) [] id none := by decide +kernel

-- refresh_token_test.go line 60: nil meta
example : runs clock (TokenGen.refreshToken isURL (some fun _ => some g!"fake-token")
    (some { tokenId := g!"azerty" })) [] id none := by decide +kernel

-- refresh_token_test.go line 67: invalid meta
example : runs clock (TokenGen.refreshToken isURL (some fun _ => some g!"fake-token")
    (some { tokenId := g!"azerty", metadata := some {} })) [] id none := by decide +kernel

-- refresh_token_test.go line 77: signer error
example : runs clock (TokenGen.refreshToken isURL (some fun _ => none)
    (some { tokenId := g!"123456789", metadata := some genMeta })) [] id none := by decide +kernel

-- refresh_token_test.go line 100: valid
example : runs clock (TokenGen.refreshToken isURL (some fun _ => some g!"fake-token")
    (some { tokenId := g!"123456789", metadata := some genMeta })) [] id (some g!"fake-token") := by decide +kernel

-- refresh_token_test.go line 123: valid with confirmation
example : runs clock (TokenGen.refreshToken isURL (some fun _ => some g!"fake-token")
    (some { tokenId := g!"123456789", metadata := some genMeta, confirmation := some { jkt := g!"0ZcOCORZNYy-DWpqq30jZyJGHTN0d2HglBV3uiguA4I" } })) [] id (some g!"fake-token") := by decide +kernel

-- client_assertion_test.go line 45: nil
example : runs clock (TokenGen.clientAssertion isURL (some fun _ => some g!"fake-token")
    none) [] id none := by decide +kernel

-- client_assertion_test.go line 49: blank jti
example : runs clock (TokenGen.clientAssertion isURL (some fun _ => some g!"fake-token")
    none) [] id none := by decide +kernel

-- client_assertion_test.go line 53: nil token id
example : runs clock (TokenGen.clientAssertion isURL (some fun _ => some g!"fake-token")
    (some {})) [] id none := by decide +kernel

-- client_assertion_test.go line 60: nil meta
example : runs clock (TokenGen.clientAssertion isURL (some fun _ => some g!"fake-token")
    (some { tokenId := g!"azerty" })) [] id none := by decide +kernel

-- client_assertion_test.go line 67: invalid meta
example : runs clock (TokenGen.clientAssertion isURL (some fun _ => some g!"fake-token")
    (some { tokenId := g!"azerty", metadata := some {} })) [] id none := by decide +kernel

-- client_assertion_test.go line 77: signer error
example : runs clock (TokenGen.clientAssertion isURL (some fun _ => none)
    (some { tokenId := g!"123456789", metadata := some assertionMeta })) [] id none := by decide +kernel

-- client_assertion_test.go line 97: valid
example : runs clock (TokenGen.clientAssertion isURL (some fun _ => some g!"fake-token")
    (some { tokenId := g!"123456789", metadata := some assertionMeta })) [] id (some g!"fake-token") := by decide +kernel

-- introspection_test.go line 46: nil
example : runs clock (TokenGen.introspection (some fun _ => some g!"fake-token")
    none) [] id none := by decide +kernel

-- introspection_test.go line 50: blank jti
example : runs clock (TokenGen.introspection (some fun _ => some g!"fake-token")
    none) [] id none := by decide +kernel

-- introspection_test.go line 54: nil token id
example : runs clock (TokenGen.introspection (some fun _ => some g!"fake-token")
    (some {})) [] id none := by decide +kernel

-- introspection_test.go line 61: nil meta
example : runs clock (TokenGen.introspection (some fun _ => some g!"fake-token")
    (some { tokenId := g!"azerty" })) [] id none := by decide +kernel

-- introspection_test.go line 68: signer error
example : runs clock (TokenGen.introspection (some fun _ => none)
    (some { tokenId := g!"123456789", metadata := some genMeta })) [] id none := by decide +kernel

-- introspection_test.go line 91: valid - expired
example : runs clock (TokenGen.introspection (some fun _ => some g!"fake-token")
    (some { tokenId := g!"123456789", tokenType := .accessToken, status := .expired, metadata := some genMeta })) [] id (some g!"fake-token") := by decide +kernel

-- introspection_test.go line 116: valid - active
example : runs clock (TokenGen.introspection (some fun _ => some g!"fake-token")
    (some { tokenId := g!"123456789", tokenType := .accessToken, status := .active, metadata := some { genMeta with issuedAt := 1699999999, notBefore := 1699999999, expiresAt := 1700000030 } })) [] id (some g!"fake-token") := by decide +kernel

/-! ### String arrays and comparison (sdk/types) -/

-- Contains: nil
example : StringArray.contains [] g!"" = false := by decide

-- Contains: empty
example : StringArray.contains [] g!"" = false := by decide

-- Contains: empty / blank
example : StringArray.contains [] g!"" = false := by decide

-- Contains: not empty / blank
example : StringArray.contains [g!""] g!"" = true := by decide

-- Contains: not empty / same case
example : StringArray.contains [g!"azerty"] g!"azerty" = true := by decide

-- Contains: not empty / not same case
example : StringArray.contains [g!"azerty"] g!"AzErTy" = true := by decide

-- AddIfNotContains: contains
example : StringArray.addIfNotContains [g!"1", g!"2", g!"3"] g!"3" = [g!"1", g!"2", g!"3"] := by decide

-- AddIfNotContains: not contains
example : StringArray.addIfNotContains [g!"1", g!"2", g!"3"] g!"4" = [g!"1", g!"2", g!"3", g!"4"] := by decide

-- Remove: contains
example : StringArray.remove [g!"1", g!"2", g!"3"] g!"3" = [g!"1", g!"2"] := by decide

-- Remove: not contains
example : StringArray.remove [g!"1", g!"2", g!"3"] g!"4" = [g!"1", g!"2", g!"3"] := by decide

-- HasOneOf: empty
example : StringArray.hasOneOf [] [] = false := by decide

-- HasOneOf: empty / not empty
example : StringArray.hasOneOf [] [g!""] = false := by decide

-- HasOneOf: not empty / empty
example : StringArray.hasOneOf [] [g!""] = false := by decide

-- HasOneOf: contains
example : StringArray.hasOneOf [g!"1", g!"2", g!"3"] [g!"1"] = true := by decide

-- HasOneOf: partial contains
example : StringArray.hasOneOf [g!"1", g!"2", g!"3"] [g!"1", g!"4"] = true := by decide

-- HasOneOf: not contains at all
example : StringArray.hasOneOf [g!"1", g!"2", g!"3"] [g!"4"] = false := by decide

-- SecureCompare: not equal, same size
example : Lib.secureCompare [1] [2] = false := by decide

-- SecureCompare: not equal, different size
example : Lib.secureCompare [1, 2] [2] = false := by decide

-- SecureCompare: equal, different size
example : Lib.secureCompare [0] [] = false := by decide

-- SecureCompare: equal, same size
example : Lib.secureCompare [1] [1] = true := by decide

-- SecureCompareString: not equal, same size
example : Lib.secureCompare g!"a" g!"b" = false := by decide

-- SecureCompareString: not equal, different size
example : Lib.secureCompare g!"ab" g!"a" = false := by decide

-- SecureCompareString: equal, different size
example : Lib.secureCompare [0] [] = false := by decide

-- SecureCompareString: equal, same size
example : Lib.secureCompare g!"a" g!"a" = true := by decide

/-! ### `Test_jwtEncoder_Encode` and `Test_jwtDecoder_Decode` (sdk/jarm) -/

-- encoder_test.go line 46: nil
example : runs clock (Sign.jarmEncode (fun _ => some g!"fake-token") g!"" none) [] id none := by decide +kernel

-- encoder_test.go line 50: issuer blank
example : runs clock (Sign.jarmEncode (fun _ => some g!"fake-token") g!"" none) [] id none := by decide +kernel

-- encoder_test.go line 57: response nil
example : runs clock (Sign.jarmEncode (fun _ => some g!"fake-token") g!"https://example.com" none) [] id none := by decide +kernel

-- encoder_test.go line 65: response has error
example : runs clock (Sign.jarmEncode (fun _ => some g!"fake-token") g!"https://example.com" (some { error := some (g!"access_denied", g!"The resource owner or authorization server denied the request.") })) [] id (some g!"fake-token") := by decide +kernel

-- encoder_test.go line 79: response has error with signer error
example : runs clock (Sign.jarmEncode (fun _ => none) g!"https://example.com" (some { error := some (g!"access_denied", g!"The resource owner or authorization server denied the request.") })) [] id none := by decide +kernel

-- encoder_test.go line 92: response client_id blank
example : runs clock (Sign.jarmEncode (fun _ => some g!"fake-token") g!"https://example.com" (some {})) [] id none := by decide +kernel

-- encoder_test.go line 102: response code blank
example : runs clock (Sign.jarmEncode (fun _ => some g!"fake-token") g!"https://example.com" (some { clientId := g!"client-12345" })) [] id none := by decide +kernel

-- encoder_test.go line 113: response state blank
example : runs clock (Sign.jarmEncode (fun _ => some g!"fake-token") g!"https://example.com" (some { clientId := g!"client-12345", code := g!"AZERTYUIOP" })) [] id none := by decide +kernel

-- encoder_test.go line 125: response expires_in zero
example : runs clock (Sign.jarmEncode (fun _ => some g!"fake-token") g!"https://example.com" (some { clientId := g!"client-12345", code := g!"AZERTYUIOP", state := g!"QSDFGHJKLM" })) [] id none := by decide +kernel

-- encoder_test.go line 138: response valid with signer error
example : runs clock (Sign.jarmEncode (fun _ => none) g!"https://example.com" (some
    { clientId := g!"client-12345", code := g!"AZERTYUIOP", state := g!"QSDFGHJKLM", expiresIn := 60 })) [] id none := by decide +kernel

-- encoder_test.go line 154: valid
example : runs clock (Sign.jarmEncode (fun _ => some g!"fake-token") g!"https://example.com" (some
    { clientId := g!"client-12345", code := g!"AZERTYUIOP", state := g!"QSDFGHJKLM", expiresIn := 60 })) [] id (some g!"fake-token") := by decide +kernel

/-- The mocks of the decoders: a token with this type, whose claims, if any, are verified. -/
def signed {C : Type} (typ : Option Str) (c : Option C) : Sign.Lib C where
  sign _ _ _ _ _ := none
  parse s := if s = g!"fake-token" then some { typ := typ, payload := [], verifies := fun _ => true } else none
  dec _ := c
  pub k := k

/-- The key set of the verifier. -/
def oneKey : Option (Option (List Jose.Jwk)) := some (some [{ key := g!"key" }])

-- decoder_test.go line 55: nil
example : runs clock (Sign.jarmDecode (signed (some g!"jarm+jwt") none) oneKey g!"" g!"" g!"") [] id
    .refused := by decide +kernel

-- decoder_test.go line 59: audience blank
example : runs clock (Sign.jarmDecode (signed (some g!"jarm+jwt") none) oneKey g!"" g!"" g!"") [] id
    .refused := by decide +kernel

-- decoder_test.go line 66: response blank
example : runs clock (Sign.jarmDecode (signed (some g!"jarm+jwt") none) oneKey g!"" g!"https://example.com" g!"") [] id
    .refused := by decide +kernel

-- decoder_test.go line 74: response parse error
example : runs clock (Sign.jarmDecode (signed (some g!"jarm+jwt") none) oneKey g!"" g!"https://example.com" g!"invalid-jwt-token") [] id
    .refused := by decide +kernel

-- decoder_test.go line 85: response type error
example : runs clock (Sign.jarmDecode (signed none none) oneKey g!"" g!"https://example.com" g!"fake-token") [] id
    .refused := by decide +kernel

-- decoder_test.go line 97: invalid response type
example : runs clock (Sign.jarmDecode (signed (some g!"invalid") none) oneKey g!"" g!"https://example.com" g!"fake-token") [] id
    .refused := by decide +kernel

-- decoder_test.go line 109: claims error
example : runs clock (Sign.jarmDecode (signed (some g!"jarm+jwt") none) oneKey g!"" g!"https://example.com" g!"fake-token") [] id
    .refused := by decide +kernel

-- decoder_test.go line 122: invalid issuer
example : runs clock (Sign.jarmDecode (signed (some g!"jarm+jwt") (some
    { iss := g!"https://foo.com", aud := g!"https://example.com", code := g!"AZERTYUIOP", state := g!"QSDFGHJKLM",
      exp := 1700000060 })) oneKey g!"https://example.com" g!"https://example.com" g!"fake-token") [] id
    .refused := by decide +kernel

-- decoder_test.go line 152: invalid audience
example : runs clock (Sign.jarmDecode (signed (some g!"jarm+jwt") (some
    { iss := g!"https://example.com", aud := g!"https://example.com", code := g!"AZERTYUIOP", state := g!"QSDFGHJKLM",
      exp := 1700000060 })) oneKey g!"https://example.com" g!"https://foo.com" g!"fake-token") [] id
    .refused := by decide +kernel

-- decoder_test.go line 182: expired
example : runs clock (Sign.jarmDecode (signed (some g!"jarm+jwt") (some
    { iss := g!"https://example.com", aud := g!"https://example.com", code := g!"AZERTYUIOP", state := g!"QSDFGHJKLM",
      exp := 1699999940 })) oneKey g!"https://example.com" g!"https://example.com" g!"fake-token") [] id
    .refused := by decide +kernel

-- decoder_test.go line 212: claims has error
example : runs clock (Sign.jarmDecode (signed (some g!"jarm+jwt") (some { error := g!"invalid_request" })) oneKey g!"https://example.com" g!"https://example.com" g!"fake-token") [] id
    (.resp { error := some (g!"invalid_request", []) }) := by decide +kernel

-- decoder_test.go line 240: valid
example : runs clock (Sign.jarmDecode (signed (some g!"jarm+jwt") (some
    { iss := g!"https://accounts.example.com", aud := g!"s6BhdRkqt3", code := g!"PyyFaux2o7Q0YfXBU32jhw.5FXSQpvr8akv9CeRDSd0QA", state := g!"S8NJ7uqk5fY4EjNvP_G_FtyJu6pUsvH9jsYni9dMAJw",
      exp := 1700000060 })) oneKey g!"https://accounts.example.com" g!"s6BhdRkqt3" g!"fake-token") [] id
    (.resp
      { code := g!"PyyFaux2o7Q0YfXBU32jhw.5FXSQpvr8akv9CeRDSd0QA", state := g!"S8NJ7uqk5fY4EjNvP_G_FtyJu6pUsvH9jsYni9dMAJw",
        issuer := g!"https://accounts.example.com" }) := by decide +kernel

/-! ### `Test_jwtEncoder_Encode` and `Test_jwtDecoder_Decode` (sdk/jwsreq) -/

-- encoder_test.go line 51: nil
example : RequestObject.encode (fun _ => some g!"fake-token") none = none := by decide +kernel

-- encoder_test.go line 55: nil authorization request
example : RequestObject.encode (fun _ => some g!"fake-token") none = none := by decide +kernel

-- encoder_test.go line 62: signer error
example : RequestObject.encode (fun _ => none) (some
    { audience := g!"mDuGcLjmamjNpLmYZMLIshFcXUDCNDcH", responseType := g!"code",
      scope := g!"openid profile email offline_access", clientId := g!"s6BhdRkqt3",
      state := g!"oESIiuoybVxAJ5fAKmxxM6s2CnVic6zU", nonce := g!"XDwbBH4MokU8BmrZ",
      redirectUri := g!"https://client.example.org/cb",
      codeChallenge := g!"K2-ltc83acc4h0c9w6ESC_rEMTJ3bww-uCHaoeK1t8U", codeChallengeMethod := g!"S256",
      prompt := some g!"consent" }) = none := by decide +kernel

-- encoder_test.go line 83: valid
example : RequestObject.encode (fun _ => some g!"fake-token") (some
    { audience := g!"mDuGcLjmamjNpLmYZMLIshFcXUDCNDcH", responseType := g!"code",
      scope := g!"openid profile email offline_access", clientId := g!"s6BhdRkqt3",
      state := g!"oESIiuoybVxAJ5fAKmxxM6s2CnVic6zU", nonce := g!"XDwbBH4MokU8BmrZ",
      redirectUri := g!"https://client.example.org/cb",
      codeChallenge := g!"K2-ltc83acc4h0c9w6ESC_rEMTJ3bww-uCHaoeK1t8U", codeChallengeMethod := g!"S256",
      prompt := some g!"consent" }) = some g!"fake-token" := by decide +kernel

/-- The decoder against the mock of the verifier. -/
def decodeRequest (m : Option (List (Str × RequestObject.JVal))) (raw : Str) : Jose.Out AuthzRequest :=
  RequestObject.decodeToken (signed none (none : Option Unit)).parse (fun _ => m) (fun _ => none) oneKey raw

-- decoder_test.go line 59: nil
example : decodeRequest none g!"" = .err := by decide +kernel

-- decoder_test.go line 63: blank token
example : decodeRequest none g!"" = .err := by decide +kernel

-- decoder_test.go line 70: claims error
example : decodeRequest none g!"fake-token" = .err := by decide +kernel

-- decoder_test.go line 80: claims json error
example : decodeRequest (some [(g!"non-serializable", .other)]) g!"fake-token" = .err := by decide +kernel

-- decoder_test.go line 97: claims protojson error
example : decodeRequest (some [(g!"scope", .str g!"openid"), (g!"foo", .str g!"non-existent")]) g!"fake-token" = .err := by decide +kernel

-- decoder_test.go line 115: valid
example : decodeRequest (some [(g!"scope", .str g!"openid")]) g!"fake-token" = .ok { scope := g!"openid" } := by decide +kernel

/-! ### `Test_privateKeyJWTAuthentication_Authenticate` (server/clientauthentication/private_key_jwt_test.go)

An assertion is `good` and verifies under the key of the client; the JSON of key sets is not modelled: a set of the
tests is written as its name. -/

/-- Parsers for one assertion. -/
def assertionParsers (parsed : Bool) (c : Option ClientAuth.PrivClaims) : ClientAuth.Parsers where
  parse s := if s = g!"assertion" ∧ parsed then
    some { typ := some g!"JWT", payload := [], verifies := fun k => k.key = g!"client key" } else none
  privClaims _ := c
  attClaims _ := none
  popClaims _ := none
  jwks s :=
    if s = g!"with sig" then some [{ use := g!"sig", alg := g!"ES256", key := g!"client key" }]
    else if s = g!"with enc" then some [{ use := g!"enc", alg := g!"ES256", key := g!"client key" }]
    else if s = g!"{\"foo\":\"bar\"}" then some []
    else none

/-- The claims of the tests. -/
def privClaims : ClientAuth.PrivClaims :=
  { jti := g!"123456789", sub := g!"38174623762", iss := g!"38174623762", aud := g!"http://localhost:8080/token",
    exp := 1700007200, iat := 1700000000 }

-- line 53: nil request
example : runs clock (ClientAuth.privateKeyJwt (assertionParsers true none) none)
    [] id
    ⟨some { error := some { code := .invalidRequest } }, true⟩ := by decide +kernel

-- line 60: empty request
example : runs clock (ClientAuth.privateKeyJwt (assertionParsers true none) (some {}))
    [] id
    ⟨some { error := some { code := .invalidRequest } }, true⟩ := by decide +kernel

-- line 71: empty client_assertion_type
example : runs clock (ClientAuth.privateKeyJwt (assertionParsers true none) (some { assertionType := some [] }))
    [] id
    ⟨some { error := some { code := .invalidRequest } }, true⟩ := by decide +kernel

-- line 84: invalid client_assertion_type
example : runs clock (ClientAuth.privateKeyJwt (assertionParsers true none) (some { assertionType := some g!"foo" }))
    [] id
    ⟨some { error := some { code := .invalidRequest } }, true⟩ := by decide +kernel

-- line 97: nil client_assertion
example : runs clock (ClientAuth.privateKeyJwt (assertionParsers true none) (some { assertionType := some ClientAuth.typeBearer }))
    [] id
    ⟨some { error := some { code := .invalidRequest } }, true⟩ := by decide +kernel

-- line 110: empty client_assertion
example : runs clock (ClientAuth.privateKeyJwt (assertionParsers true none) (some { assertionType := some ClientAuth.typeBearer, assertion := some [] }))
    [] id
    ⟨some { error := some { code := .invalidRequest } }, true⟩ := by decide +kernel

-- line 124: invalid JWT
example : runs clock (ClientAuth.privateKeyJwt (assertionParsers false none) 
    (some { assertionType := some ClientAuth.typeBearer, assertion := some g!"assertion" }))
    [] id
    ⟨some { error := some { code := .invalidRequest } }, true⟩ := by decide +kernel

-- line 138: invalid JWT: invalid json body
example : runs clock (ClientAuth.privateKeyJwt (assertionParsers true none) 
    (some { assertionType := some ClientAuth.typeBearer, assertion := some g!"assertion" }))
    [] id
    ⟨some { error := some { code := .invalidRequest } }, true⟩ := by decide +kernel

-- line 152: invalid JWT: jti empty
example : runs clock (ClientAuth.privateKeyJwt (assertionParsers true (some { privClaims with jti := [] })) 
    (some { assertionType := some ClientAuth.typeBearer, assertion := some g!"assertion" }))
    [] id
    ⟨some { error := some { code := .invalidRequest } }, true⟩ := by decide +kernel

-- line 173: invalid JWT: sub empty
example : runs clock (ClientAuth.privateKeyJwt (assertionParsers true (some { privClaims with sub := [] })) 
    (some { assertionType := some ClientAuth.typeBearer, assertion := some g!"assertion" }))
    [] id
    ⟨some { error := some { code := .invalidRequest } }, true⟩ := by decide +kernel

-- line 194: invalid JWT: iss empty
example : runs clock (ClientAuth.privateKeyJwt (assertionParsers true (some { privClaims with iss := [] })) 
    (some { assertionType := some ClientAuth.typeBearer, assertion := some g!"assertion" }))
    [] id
    ⟨some { error := some { code := .invalidRequest } }, true⟩ := by decide +kernel

-- line 215: invalid JWT: aud empty
example : runs clock (ClientAuth.privateKeyJwt (assertionParsers true (some { privClaims with aud := [] })) 
    (some { assertionType := some ClientAuth.typeBearer, assertion := some g!"assertion" }))
    [] id
    ⟨some { error := some { code := .invalidRequest } }, true⟩ := by decide +kernel

-- line 236: invalid JWT: exp equal 0
example : runs clock (ClientAuth.privateKeyJwt (assertionParsers true (some { privClaims with exp := 0 })) 
    (some { assertionType := some ClientAuth.typeBearer, assertion := some g!"assertion" }))
    [] id
    ⟨some { error := some { code := .invalidRequest } }, true⟩ := by decide +kernel

-- line 257: invalid JWT: iss and sub mismatch
example : runs clock (ClientAuth.privateKeyJwt (assertionParsers true (some { privClaims with iss := g!"45678941561" })) 
    (some { assertionType := some ClientAuth.typeBearer, assertion := some g!"assertion" }))
    [] id
    ⟨some { error := some { code := .invalidRequest } }, true⟩ := by decide +kernel

-- line 278: invalid JWT: expired assertion
example : runs clock (ClientAuth.privateKeyJwt (assertionParsers true (some { privClaims with exp := 1536132708 })) 
    (some { assertionType := some ClientAuth.typeBearer, assertion := some g!"assertion" }))
    [] id
    ⟨some { error := some { code := .invalidRequest } }, true⟩ := by decide +kernel

-- line 292: client not found
example : runs clock (ClientAuth.privateKeyJwt (assertionParsers true (some privClaims)) 
    (some { assertionType := some ClientAuth.typeBearer, assertion := some g!"assertion" }))
    [.clientsGet g!"38174623762" (.error .notFound)] id
    ⟨some { error := some { code := .invalidClient } }, true⟩ := by decide +kernel

-- line 316: client storage error
example : runs clock (ClientAuth.privateKeyJwt (assertionParsers true (some privClaims)) 
    (some { assertionType := some ClientAuth.typeBearer, assertion := some g!"assertion" }))
    [.clientsGet g!"38174623762" (.error .other)] id
    ⟨some { error := some { code := .serverError } }, true⟩ := by decide +kernel

-- line 340: retrieve client have nil jwks
example : runs clock (ClientAuth.privateKeyJwt (assertionParsers true (some privClaims)) 
    (some { assertionType := some ClientAuth.typeBearer, assertion := some g!"assertion" }))
    [.clientsGet g!"38174623762" (.ok (some { clientId := [], jwks := [] }))] id
    ⟨some { error := some { code := .invalidClient } }, true⟩ := by decide +kernel

-- line 366: retrieve client have empty jwks
example : runs clock (ClientAuth.privateKeyJwt (assertionParsers true (some privClaims)) 
    (some { assertionType := some ClientAuth.typeBearer, assertion := some g!"assertion" }))
    [.clientsGet g!"38174623762" (.ok (some { clientId := [], jwks := [] }))] id
    ⟨some { error := some { code := .invalidClient } }, true⟩ := by decide +kernel

-- line 392: retrieve client have invalid jwks json
example : runs clock (ClientAuth.privateKeyJwt (assertionParsers true (some privClaims)) 
    (some { assertionType := some ClientAuth.typeBearer, assertion := some g!"assertion" }))
    [.clientsGet g!"38174623762" (.ok (some { clientId := [], jwks := g!"{\"fo:\"bar\"}" }))] id
    ⟨some { error := some { code := .invalidClient } }, true⟩ := by decide +kernel

-- line 418: retrieve client have invalid jwks
example : runs clock (ClientAuth.privateKeyJwt (assertionParsers true (some privClaims)) 
    (some { assertionType := some ClientAuth.typeBearer, assertion := some g!"assertion" }))
    [.clientsGet g!"38174623762" (.ok (some { clientId := [], jwks := g!"{\"foo\":\"bar\"}" }))] id
    ⟨some { error := some { code := .invalidClient } }, true⟩ := by decide +kernel

-- line 444: retrieve client have valid jwks but no sig key
example : runs clock (ClientAuth.privateKeyJwt (assertionParsers true (some privClaims)) 
    (some { assertionType := some ClientAuth.typeBearer, assertion := some g!"assertion" }))
    [.clientsGet g!"38174623762" (.ok (some { clientId := [], jwks := g!"with enc" }))] id
    ⟨some { error := some { code := .invalidClient } }, true⟩ := by decide +kernel

-- line 471: valid
example : runs clock (ClientAuth.privateKeyJwt (assertionParsers true (some privClaims)) 
    (some { assertionType := some ClientAuth.typeBearer, assertion := some g!"assertion" }))
    [.clientsGet g!"38174623762" (.ok (some { clientId := [], jwks := g!"with sig" }))] id
    ⟨some { client := some { clientId := [], jwks := g!"with sig" } }, false⟩ := by decide +kernel

end Verif.Replay
