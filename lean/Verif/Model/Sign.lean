import Verif.Model.Jose
import Verif.Model.Prog
import Verif.Model.Env
import Verif.Model.Device
import Verif.Model.DPoP

/-!
What the SDK signs: `sdk/token/jwt/signer.go` and `builders.go`, the authorization
response of `sdk/jarm`, and the DPoP proofs of `sdk/dpop/prover.go`.

go-jose and the JSON encoding are parameters (`Lib`); `Lib.Lawful` says what is assumed
of them: what is signed parses, verifies under the public key, and decodes to the same
claims. (Go's JSON encoder replaces invalid UTF-8, so for claims with such strings the
assumption fails.)
-/
namespace Verif.Sign
open Verif.Jose
open Verif.Device (unix)

/-- The signing and verification library for claims of type `C`. -/
structure Lib (C : Type) where
  /-- `jose.NewSigner` with a `typ` header, a `kid` header and the embedding flag, then
  `jwt.Signed(..).Claims(..).Serialize()` -/
  sign : (typ kid : Str) → (embed : Bool) → Jwk → C → Option Str
  /-- `jwt.ParseSigned` restricted to the supported algorithms -/
  parse : Str → Option Jws
  /-- JSON decoding of the payload -/
  dec : Str → Option C
  /-- the public half of a key -/
  pub : Jwk → Jwk

/-- Correctness of the library for the claims satisfying `ok`. -/
structure Lib.Lawful {C : Type} (L : Lib C) (ok : C → Prop) : Prop where
  nonempty : ∀ {typ kid e k c raw}, L.sign typ kid e k c = some raw → raw ≠ []
  signed : ∀ {typ kid e k c raw}, ok c → L.sign typ kid e k c = some raw →
    ∃ t, L.parse raw = some t ∧ t.typ = some typ ∧ t.kid = kid ∧ t.verifies (L.pub k) = true ∧
      L.dec t.payload = some c ∧ (e = true → t.jwk = some (L.pub k))

/-- The signers of builders.go: token type and whether the key is embedded. -/
structure Signer where
  tokenType : Str
  embed : Bool
deriving DecidableEq, Repr

/-- builders.go:58-65 with sdk/token/api.go:36. -/
def jarmSigner : Signer := ⟨g!"jarm", false⟩
/-- builders.go:68-75 with sdk/token/api.go:38. -/
def dpopSigner : Signer := ⟨g!"dpop", true⟩

/-- signer.go:38-76 `Serialize`; `provider` is the answer of the key provider (`none` for
an error or a nil key). -/
def serialize {C : Type} (L : Lib C) (s : Signer) (provider : Option Jwk) (c : C) : Option Str :=
  match provider with
  | none => none
  | some k => if k.kid = [] then none else L.sign s.tokenType k.kid s.embed k c

/-! ### sdk/jarm -/

/-- decoder.go:32-41 `responseClaims`. -/
structure JarmClaims where
  iss : Str := []
  aud : Str := []
  exp : Nat := 0
  code : Str := []
  state : Str := []
  error : Str := []
  errorDescription : Str := []
deriving DecidableEq, Repr

/-- What is read of an authorization response; `error` is `(err, description)`. -/
structure JarmResp where
  error : Option (Str × Str) := none
  code : Str := []
  state : Str := []
  clientId : Str := []
  issuer : Str := []
  expiresIn : Nat := 0
deriving DecidableEq, Repr

/-- encoder.go:40-88 `Encode`; `ser` is the serializer. `time.Duration(expiresIn) *
time.Second` is assumed not to overflow. -/
def jarmEncode (ser : JarmClaims → Option Str) (issuer : Str) (resp : Option JarmResp) : Prog (Option Str) :=
  if issuer = [] then .ret none
  else match resp with
    | none => .ret none
    | some r =>
      match r.error with
      | some (e, d) => .ret (ser { state := r.state, error := e, errorDescription := d })
      | none =>
        if r.clientId = [] then .ret none
        else if r.code = [] then .ret none
        else if r.state = [] then .ret none
        else if r.expiresIn = 0 then .ret none
        else do
          let now ← Prog.call .now
          return ser { state := r.state, iss := r.issuer, aud := r.clientId, code := r.code,
                       exp := unix (now + r.expiresIn * 1000000000) }

/-- sdk/jarm/api.go:29 `HeaderType`. -/
def jarmHeaderType : Str := g!"jarm+jwt"

/-- The outcome of `Decode`: a refusal, or a response. -/
inductive JarmOut where
  | refused
  | crashed
  | resp (r : JarmResp)
deriving DecidableEq, Repr

/-- decoder.go:62-130 `Decode`, with the default verifier: `provider` is the answer of its
key-set provider. Refusals with an error answer and without are not distinguished. -/
def jarmDecode (L : Lib JarmClaims) (provider : Option (Option (List Jwk))) (issuer audience response : Str) :
    Prog JarmOut :=
  if audience = [] then .ret .refused
  else if response = [] then .ret .refused
  else match L.parse response with
    | none => .ret .refused
    | some t =>
      if t.typ ≠ some jarmHeaderType then .ret .refused
      else match defaultClaims L.parse L.dec provider response with
        | .err => .ret .refused
        | .panic => .ret .crashed
        | .ok c =>
          if c.error ≠ [] then .ret (.resp { error := some (c.error, c.errorDescription) })
          else if c.iss ≠ issuer then .ret .refused
          else if c.aud ≠ audience then .ret .refused
          else do
            let now ← Prog.call .now
            if c.exp < unix now then return .refused
            else return .resp { code := c.code, state := c.state, issuer := c.iss }

/-! ### sdk/dpop/prover.go -/

/-- What `url.ParseRequestURI` yields. -/
structure Url where
  scheme : Str
  host : Str
  path : Str
  /-- `String()` -/
  str : Str
deriving DecidableEq, Repr

/-- The parser of requests' URLs. -/
abbrev ParseUrl := Str → Option Url

/-- prover.go:51-102 `Prove`; `jti` is the random identifier. -/
def prove (E : Env) (parseUrl : ParseUrl) (ser : Option (ProofClaims → Option Str)) (htm htu jti : Str)
    (tokenValue : Option Str) : Prog (Option Str) :=
  match ser with
  | none => .ret none
  | some ser =>
    if htm = [] then .ret none
    else if htu = [] then .ret none
    else match parseUrl htu with
      | none => .ret none
      | some u =>
        if ¬ (Go.toUpper htm) ∈ DPoP.methods then .ret none
        else do
          let now ← Prog.call .now
          return ser { jti := jti, htm := htm, htu := u.scheme ++ g!"://" ++ u.host ++ u.path, iat := unix now,
                       ath := tokenValue.map fun v => Go.b64 (E.sha256 v) }

/-- What a verifier makes of a parsed token (`tokenAdapter`). -/
def toProof (L : Lib ProofClaims) (t : Jws) : Proof :=
  { typ := t.typ
    jwk := t.jwk.map (·.key)
    claims := fun key => match t.jwk with
      | some k => if k.key = key then Jose.claims L.dec t k else none
      | none => none }

end Verif.Sign
