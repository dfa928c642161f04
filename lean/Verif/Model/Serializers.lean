import Verif.Model.Jose
import Verif.Go.Base64

/-!
What makes tokens out of claims: `sdk/token/jwt`, `sdk/token/paseto`, `sdk/token/cwt` (signer.go
and builders.go) and the encryption decorator `sdk/token/encrypted.go`.

go-jose, COSE, PASETO and the encodings of claims are parameters. The nil checks use
`types.IsNil`; a nil value is `none`.
-/
namespace Verif.Serializers
open Verif.Jose

/-- sdk/token/api.go:27-44: the types of tokens, one for each builder. -/
inductive Kind where
  | access | refresh | request | jarm | dpop | assertion | introspection | metadata
deriving DecidableEq, Repr

def Kind.name : Kind → Str
  | access => g!"at"
  | refresh => g!"rt"
  | request => g!"oauth-authz-req"
  | jarm => g!"jarm"
  | dpop => g!"dpop"
  | assertion => g!"client-assertion"
  | introspection => g!"token-introspection"
  | metadata => g!"oauth-authorization-server"

/-- What the serializers look at in a `jose.JSONWebKey`: its id, `IsPublic`, whether it holds
an `ed25519.PrivateKey`, and the key itself. -/
structure Key where
  kid : Str
  isPublic : Bool := false
  isEd25519Private : Bool := false
  material : Str
deriving DecidableEq, Repr

/-- A `jwk.KeyProviderFunc`: nil, or what it answers (an error, a nil key or a key). -/
inductive Provider where
  | absent
  | fails
  | noKey
  | key (k : Key)

/-- go-jose: the signed token with these headers; `none` is an error. -/
abbrev JwtLib (C : Type) := (alg typ kid : Str) → (embed : Bool) → Key → C → Option Str

/-- sdk/token/jwt/signer.go:38-76 `Serialize`. -/
def jwt {C : Type} (sign : JwtLib C) (alg typ : Str) (embed : Bool) (p : Provider) (claims : Option C) : Out Str :=
  match claims with
  | none => .err
  | some c =>
    match p with
    | .absent => .err
    | .fails => .err
    | .noKey => .err
    | .key k => if k.kid = [] then .err else .ofOption (sign alg typ k.kid embed k c)

/-- sdk/token/jwt/builders.go: the type of the kind, as it is; only DPoP proofs embed the key. -/
def jwtBuilder {C : Type} (sign : JwtLib C) (alg : Str) (kind : Kind) : Provider → Option C → Out Str :=
  jwt sign alg kind.name (kind = .dpop)

/-- PASETO v4: JSON of the claims, JSON of the footer, and the signature. -/
structure PasetoLib (C : Type) where
  json : C → Option Str
  footer : (kid typ : Str) → Option Str
  sign : (message : Str) → Key → (footer : Str) → Option Str

/-- sdk/token/paseto/signer.go:36-42 and 51-104 `Serialize`. -/
def paseto {C : Type} (L : PasetoLib C) (tokenType : Str) (p : Provider) (claims : Option C) : Out Str :=
  match claims with
  | none => .err
  | some c =>
    match p with
    | .absent => .err
    | .fails => .err
    | .noKey => .err
    | .key k =>
      if k.kid = [] then .err
      else if ¬ k.isEd25519Private then .err
      else match L.json c with
        | none => .err
        | some m =>
          match L.footer k.kid (tokenType ++ g!"+paseto") with
          | none => .err
          | some f => .ofOption (L.sign m k f)

/-- COSE: whether a signer can be made for the key, CBOR of the claims, and the signed message
with its headers and external data. -/
structure CwtLib (C : Type) where
  signer : (alg : Str) → Key → Bool
  cbor : C → Option Str
  sign : (alg typ kid : Str) → (external : Str) → Key → (payload : Str) → Option Str

/-- sdk/token/cwt/signer.go:54-110 `Serialize`. The provider is called without a check, so a
nil one panics. The algorithm is taken to be given. -/
def cwt {C : Type} (L : CwtLib C) (alg tokenType : Str) (p : Provider) (claims : Option C) : Out Str :=
  match claims with
  | none => .err
  | some c =>
    match p with
    | .absent => .panic
    | .fails => .err
    | .noKey => .err
    | .key k =>
      if k.kid = [] then .err
      else if k.isPublic then .err
      else if ¬ L.signer alg k then .err
      else match L.cbor c with
        | none => .err
        | some b =>
          match L.sign alg (tokenType ++ g!"+cwt") k.kid g!"solid" k b with
          | none => .err
          | some m => .ok (Go.b64 m)

/-- sdk/token/cwt/builders.go; there is none for server metadata. -/
def cwtBuilder {C : Type} (L : CwtLib C) (alg : Str) (kind : Kind) (p : Provider) (claims : Option C) : Out Str :=
  cwt L alg kind.name p claims

/-- A `token.Serializer`. -/
structure Serializer (C : Type) where
  serialize : Option C → Out Str
  contentType : Str

def jwtSerializer {C : Type} (sign : JwtLib C) (alg : Str) (kind : Kind) (p : Provider) : Serializer C :=
  ⟨jwtBuilder sign alg kind p, g!"JWT"⟩
def pasetoSerializer {C : Type} (L : PasetoLib C) (tokenType : Str) (p : Provider) : Serializer C :=
  ⟨paseto L tokenType p, g!"PASETO"⟩
def cwtSerializer {C : Type} (L : CwtLib C) (alg : Str) (kind : Kind) (p : Provider) : Serializer C :=
  ⟨cwtBuilder L alg kind p, g!"CWT"⟩

/-- A `token.Encrypter`: content type, token and additional data. -/
abbrev Encrypter := (contentType token aad : Str) → Option Str

/-- sdk/token/encrypted.go:28-69. -/
def encryption {C : Type} (s : Option (Serializer C)) (e : Option Encrypter) : Serializer C where
  serialize claims :=
    match s with
    | none => .err
    | some s =>
      match e with
      | none => .err
      | some e =>
        match s.serialize claims with
        | .ok signed => .ofOption (e s.contentType signed g!"urn:solid:token:sign-and-encrypt")
        | .err => .err
        | .panic => .panic
  contentType := g!"HYBRID"

end Verif.Serializers
