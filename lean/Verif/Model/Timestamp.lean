import Verif.Model.Challenge
import Verif.Go.Base64

/-!
The example resource server (`examples/resourceserver/main.go`): its routes, the signed timestamps
and the metadata. Ed25519 is a parameter. The redirections of `http.ServeMux` for paths that are not
clean are left out.
-/
namespace Verif.Timestamp
open Verif.ResourceServer

/-- `crypto/ed25519`. -/
structure Ed25519 where
  /-- private key and message -/
  sign : Str → Str → Str
  /-- public key, message and signature -/
  verify : Str → Str → Str → Bool

/-- `binary.BigEndian.PutUint64`, for the lowest `k` bytes. -/
def bigEndian : Nat → Nat → Str
  | 0, _ => []
  | k + 1, n => bigEndian k (n / 256) ++ [UInt8.ofNat (n % 256)]

/-- main.go:56-64: the protected payload; `uint64(now)` wraps. -/
def payload (issuer nonce : Str) (now : Int) : Str :=
  g!"signed-timestamp-protocol-v1" ++ issuer ++ nonce ++ bigEndian 8 (now % 2 ^ 64).toNat

/-- main.go:70-81: what the answer says. -/
structure Doc where
  issuer : Str
  timestamp : Int
  scheme : Str
  nonce : Str
  proof : Str
  pub : Str
deriving DecidableEq, Repr

/-- main.go:42-87 `ResourceHandler`; `none` is the status 500. -/
def sign (ed : Ed25519) (issuer pub priv : Str) (nonce : Option Str) (now : Int) : Option Doc :=
  match nonce with
  | none => none
  | some nonce =>
    some { issuer := issuer, timestamp := now, scheme := g!"ed25519", nonce := Go.b64 nonce
           proof := Go.b64 (ed.sign priv (payload issuer nonce now)), pub := Go.b64 pub }

/-- main.go:20-28 with resource.pb.json.go:11-17: the members of the metadata; fields that are
unset are written if they are repeated. -/
def metadata : List (Str × Discovery.JVal) :=
  [(g!"resource", .str g!"http://127.0.0.1:8085"), (g!"authorization_servers", .strs []),
    (g!"scopes_provided", .strs [g!"timestamp:read"]), (g!"bearer_methods_supported", .strs []),
    (g!"resource_signing_alg_values_supported", .strs []), (g!"resource_encryption_alg_values_supported", .strs []),
    (g!"resource_encryption_enc_values_supported", .strs [])]

/-- An answer of the resource server. -/
inductive Answer
  | refused (status : Nat) (header : Headers.Header)
  | failed
  | signed (d : Doc)
  | metadata (m : List (Str × Discovery.JVal))

/-- What `main` sets up, and the answer of the random source. -/
structure Rs where
  ed : Ed25519
  E : Env
  cli : Cli
  pub : Str
  priv : Str
  nonce : Option Str

/-- main.go:90 -/
def issuer : Str := g!"http://localhost:8085"

/-- main.go:107-108: the routes. -/
def serve (S : Rs) (r : ResourceServer.Req) : Prog Answer :=
  if r.target.path = g!"/.well-known/oauth-protected-resource" then .ret (.metadata metadata)
  else do
    match ← authorizerH S.E S.cli g!"timestamp:read" [g!"urn:solid:loa:1fa:any"] 30 r with
    | .refused n h => return .refused n h
    | .passed =>
      let now : Nat ← .call .now
      match sign S.ed issuer S.pub S.priv S.nonce now with
      | none => return .failed
      | some d => return .signed d

end Verif.Timestamp
