import Verif.Go.Sha256
import Verif.Go.Blake2b
import Verif.Model.Url
import Verif.Model.Lib
import Verif.Model.Verifiable

/-!
The hash functions as the code uses them. Everywhere else they are parameters; here
they are put in place, with the keys of the in-memory stores.
-/
namespace Verif.Hashes

/-- A hexadecimal digit, as `%x` writes it. -/
def digit (n : UInt8) : UInt8 := if n < 10 then 48 + n else 87 + n

/-- `fmt.Sprintf("%x", b)`. -/
def hex : Str → Str
  | [] => []
  | b :: s => digit (b / 16) :: digit (b % 16) :: hex s

/-- The keys given to `blake2b.New256`, by store:
server/storage/inmemory/authorization_code_session.go:76, authorization_request.go:76,
device_code_session.go:99 and 113, token.go:124. -/
def storeKey : Nat → Str
  | 0 => g!"Sj%u-#$yVfdaHE/@e-=2\"MI<T];#tr'{|udMFn.@4abjM({8L'|j]{G2ecDK[W2\""
  | 1 => g!"!|XH/CNMA8WSlN*;*UKL!0tW[CU17EB4A.a)[WZbvKSl;F?G#PxjijvtFWS0C=T"
  | 2 => g!"bA(0Kq#UT>42Va[MEFs[M%owo8|jiTbf!SVr1h0RaT~$a6?L\\rqeB$q>fSDLz0:"
  | _ => g!"%JwQL_C=w^R@9?{J,=;LHe=&n0L1P{QrS=MsA}7H]V3fHd8&$noL&\"hZH;&Uw)3"

/-- The external functions of the services, with the hash functions, the URL parser and
the validator of request URIs that the code uses. Parsing and verifying signed proofs
remain parameters. -/
def env (parseProof : Str → Option Proof) (thumbprint : Str → Option Str) : Env where
  parseRequestURI s := (Url.parseRequestURI s).isSome
  sha256 := Go.sha256
  blake n s := hex (Go.blake2b256 (storeKey n) s)
  requestUriOk _ u := Lib.validateUri u
  urlString := Url.urlString
  parseProof := parseProof
  thumbprint := thumbprint
  blakeSum := Go.blake2b256 []

/-- The functions of verifiable tokens (sdk/token/verifiable/uuid.go:108-124). -/
def crypto : Verifiable.Crypto := ⟨Go.hkdfSha256, Go.hmacSha256⟩

end Verif.Hashes
