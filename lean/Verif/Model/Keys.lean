import Verif.Model.Json
import Verif.Model.Jose
import Verif.Spec.Json
import Verif.Spec.P384
import Verif.Go.Base64Dec

/-!
The keys of the example servers: `examples/authorizationserver/settings.go` (`keyProvider`,
`keySetProvider`), `handlers/jwks.go`, and the keys written in `examples/resourceserver/main.go`,
`examples/deviceclient/main.go` and `examples/attestationserver/main.go`.

Of github.com/go-jose/go-jose/v4 `jwk.go` the part for EC keys on P-384, the only ones in these texts but
for the Ed25519 key of the attestation server. JSON values are given as what the text says (`Spec.Json.Datum`).
-/
namespace Verif.Keys
open Verif.Json Verif.Spec.Json

/-- A `jose.JSONWebKey` with a key on P-384: the coordinates and, for a private key, the number,
as 48 bytes each (big-endian). -/
structure EcKey where
  use : Str := []
  kid : Str := []
  alg : Str := []
  x : Str
  y : Str
  d : Option Str := none
deriving DecidableEq, Repr

/-- `big.Int.SetBytes`. -/
def nat (s : Str) : Nat := s.foldl (fun n b => n * 256 + b.toNat) 0

/-- jwk.go `Public`. -/
def EcKey.pub (k : EcKey) : EcKey := { k with d := none }

/-- A member with `omitempty`. -/
def omitEmpty (name s : Str) : List (Str × Str) := if s = [] then [] else [(name, quote s)]

/-- jwk.go `MarshalJSON`: the fields of `rawJSONWebKey` in their order; numbers as unpadded base64url. -/
def keyText (k : EcKey) : Str :=
  object (omitEmpty g!"use" k.use ++ [(g!"kty", quote g!"EC")] ++ omitEmpty g!"kid" k.kid ++ [(g!"crv", quote g!"P-384")] ++
    omitEmpty g!"alg" k.alg ++ [(g!"x", quote (Go.b64 k.x)), (g!"y", quote (Go.b64 k.y))] ++
    (k.d.map fun d => (g!"d", quote (Go.b64 d))).toList)

/-- `jose.JSONWebKeySet`. -/
def setText (ks : List EcKey) : Str := object [(g!"keys", 91 :: commas [44] (ks.map keyText) ++ [93])]

/-- A text, empty if there is no such member; `none` for another value. -/
def text (l : List (Str × Datum)) (name : Str) : Option Str :=
  match l.lookup name with
  | none => some []
  | some (.str s) => some s
  | some _ => none

/-- jwk.go `byteBuffer`: `some none` if there is no such member. -/
def buffer (l : List (Str × Datum)) (name : Str) : Option (Option Str) :=
  match l.lookup name with
  | none => some none
  | some (.str s) => (Go.b64Decode s).map some
  | some _ => none

/-- jwk.go `UnmarshalJSON` for members with different names: `ecPublicKey` and `ecPrivateKey`. Other
kinds of keys and other curves are not modelled. -/
def ofMembers (l : List (Str × Datum)) : Option EcKey :=
  match text l g!"use", text l g!"kty", text l g!"kid", text l g!"crv", text l g!"alg", buffer l g!"x", buffer l g!"y", buffer l g!"d" with
  | some use, some kty, some kid, some crv, some alg, some (some x), some (some y), some d =>
    if kty = g!"EC" ∧ crv = g!"P-384" ∧ x.length = 48 ∧ y.length = 48 ∧ Spec.P384.OnCurve (nat x) (nat y) ∧
        (d.all fun d => d.length = 48) then
      some { use := use, kid := kid, alg := alg, x := x, y := y, d := d }
    else none
  | _, _, _, _, _, _, _, _ => none

/-- `jose.JSONWebKeySet` of such keys. -/
def ofSet : Datum → Option (List EcKey)
  | .obj l =>
    match l.lookup g!"keys" with
    | some (.arr ks) => ks.mapM fun
      | .obj m => ofMembers m
      | _ => none
    | _ => none
  | _ => none

/-- settings.go:12-21. -/
def jwkPrivateKey : Str := g!"{\n\t\"kty\": \"EC\",\n\t\"d\": \"-3yrGLfHTjuvcpG8gZzwQoz9P6uWgBW6HTmYTb-f6u4HxK05PpTdheKBdQ1nXkV-\",\n\t\"use\": \"sig\",\n\t\"crv\": \"P-384\",\n\t\"kid\": \"123456789\",\n\t\"x\": \"De4LLFSUCTAAU8O7_ew0VkNR03_kTH9SNCFuhbpi8D1JUbhABRLpNygSDLf2waQt\",\n\t\"y\": \"cEXPFElY6-qb-5xsFu875_58D3lKZlcOzD99ulje6CAh4D_rJjYU7quxf82xCAUZ\",\n\t\"alg\": \"ES384\"\n}"

/-- settings.go:23-36 `keyProvider`; `dec` is `json.Unmarshal` into a key, and without a key the
server does not start. -/
def keyProvider (dec : Str → Option EcKey) : Option EcKey := dec jwkPrivateKey

/-- settings.go:38-55 `keySetProvider`. -/
def keySetProvider (dec : Str → Option EcKey) : Option (List EcKey) := (dec jwkPrivateKey).map fun k => [k.pub]

/-- handlers/jwks.go:29-41 `JWKS`: the status and the text; `ks` is `none` if the provider fails. -/
def jwks (space : Bool) (ks : Option (List EcKey)) : Nat × Str :=
  match ks with
  | none => (500, errorText space { code := .serverError })
  | some ks => (200, setText ks)

/-- The key as the verifiers see it. -/
def EcKey.jwk (k : EcKey) : Jose.Jwk := { kid := k.kid, use := k.use, alg := k.alg, key := k.x ++ k.y ++ k.d.getD [] }

/-- examples/resourceserver/main.go:93. -/
def resourceServerJwk : Str := g!"{\"kty\":\"EC\",\"crv\":\"P-384\",\"alg\":\"ES384\",\"x\":\"YvJISWbCgiUhED5jb_N6UEem2jwN4WU2kIgC3KsT1tXS2FB7PSKdFdx76vtUW2e3\",\"y\":\"XYEHKEfIH8dd2xqZ8oTO8COnOs_OpFs71xvncT3c-3koJYix4Sb9c-drRRRRAqnK\",\"d\":\"uSBGgPvr8_k_6tFpN46C4S5kjfxfVwW25tT3lcVyUqeNq3TKD65o21LG58X7v88h\"}"

/-- examples/deviceclient/main.go:19. -/
def deviceClientJwk : Str := g!"{\"kty\":\"EC\",\"crv\":\"P-384\",\"alg\":\"ES384\",\"x\":\"yqLwlyN2qohjRcI_evlAXge2bvQWQQwGjsQNXEtfFMN613Wu6a5qfzu74vBkKJau\",\"y\":\"aCVWx2cX2f7foQ0KtPGJ-TKjFMtcEWv1VQKJUL93B7ANbnwnj_Ox2DsYd64wUH8o\",\"d\":\"YhOeT7joXg9LTYIFcNNAXpSfRM3GxoxfdYII4BAIJoAL1UQrHTQom0IUGxY_CLog\"}"

/-- `ed25519.GenerateKey`: what is read of the source of randomness and makes up the key. -/
def seed (source : Str) : Str := source.take 32

/-- examples/attestationserver/main.go:95. -/
def attestationSource : Str := g!"deterministic-key-generation-for-attestation-signing"

/-- examples/resourceserver/main.go:101. -/
def timestampSource : Str := g!"deterministic-key-generation-for-testing-purpose-0000"

end Verif.Keys
