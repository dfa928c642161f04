import Verif.Go.Str

/-!
Keys, signed tokens and key-set verification: `sdk/jwk/signature.go` and
`sdk/token/jwt/{verifier,embedded_verifier,token_adapter}.go`.

The cryptography and the parsing of `github.com/go-jose/go-jose/v4` are not modelled:
a parsed signed object is its protected header, its payload and the function that
tells which keys verify its signature.
-/
namespace Verif.Jose

/-- What is read of `jose.JSONWebKey`; `key` stands for the key material. -/
structure Jwk where
  kid : Str := []
  use : Str := []
  alg : Str := []
  key : Str
deriving DecidableEq, Repr

/-- A parsed `jose.JSONWebSignature` / `jwt.JSONWebToken`. -/
structure Jws where
  alg : Str := []
  kid : Str := []
  /-- the `typ` header, if any -/
  typ : Option Str := none
  /-- the embedded `jwk` header, if any -/
  jwk : Option Jwk := none
  payload : Str
  /-- `Verify(key)`: the signature verifies under the key -/
  verifies : Jwk → Bool

/-- How a Go function ends: a value, a non-nil error, or a crash. -/
inductive Out (α : Type) where
  | ok (a : α)
  | err
  | panic
deriving DecidableEq, Repr

/-- A missing value is an error. -/
def Out.ofOption {α : Type} : Option α → Out α
  | some a => .ok a
  | none => .err

/-- The loops of signature.go:46-64, 88-106 and verifier.go:100-118: the first key not
marked for encryption under which `accept` succeeds. -/
def firstKey {α : Type} (accept : Jwk → Option α) : List Jwk → Option α
  | [] => none
  | k :: ks =>
    if k.use = g!"enc" then firstKey accept ks
    else match accept k with
      | none => firstKey accept ks
      | some a => some a

/-- `JSONWebToken.Claims(key, &out)`: verify the signature, then decode the payload. -/
def claims {C : Type} (dec : Str → Option C) (t : Jws) (k : Jwk) : Option C :=
  if t.verifies k then dec t.payload else none

/-- sdk/jwk/signature.go:32-71 `ValidateToken`; nil pointers are `none`. -/
def validateToken {C : Type} (dec : Str → Option C) (jwks : Option (List Jwk)) (t : Option Jws) : Out C :=
  match jwks with
  | none => .err
  | some [] => .err
  | some (k :: ks) =>
    match t with
    | none => .err
    | some t => .ofOption (firstKey (claims dec t) (k :: ks))

/-- sdk/jwk/signature.go:74-113 `ValidateSignature`. -/
def validateSignature (jwks : Option (List Jwk)) (t : Option Jws) : Bool :=
  match jwks with
  | none => false
  | some [] => false
  | some (k :: ks) =>
    match t with
    | none => false
    | some t => (firstKey (fun k => if t.verifies k then some () else none) (k :: ks)).isSome

/-- sdk/token/jwt/verifier.go:77-127 `Claims` of the default verifier: `parse` is
`jwt.ParseSigned` restricted to the supported algorithms, `provider` the answer of
the key-set provider (`none` for its error). A nil key set without error is
dereferenced (line 94). -/
def defaultClaims {C : Type} (parse : Str → Option Jws) (dec : Str → Option C)
    (provider : Option (Option (List Jwk))) (raw : Str) : Out C :=
  match parse raw with
  | none => .err
  | some t =>
    match provider with
    | none => .err
    | some none => .panic
    | some (some jwks) =>
      let keys := if t.kid ≠ [] then jwks.filter (fun k => k.kid = t.kid) else jwks
      .ofOption (firstKey (claims dec t) keys)

/-- sdk/token/jwt/verifier.go:60-74 `Verify` of the default verifier: a parsed token has a
header, so only the syntax is checked. -/
def defaultVerify (parse : Str → Option Jws) (raw : Str) : Bool := (parse raw).isSome

/-- sdk/token/jwt/embedded_verifier.go:57-85 `Verify`: the embedded key exists and is
declared for the algorithm of the token. The signature is not checked. -/
def embeddedVerify (parse : Str → Option Jws) (raw : Str) : Bool :=
  match parse raw with
  | none => false
  | some t =>
    match t.jwk with
    | none => false
    | some k => decide (k.alg = t.alg)

/-- sdk/token/jwt/embedded_verifier.go:88-105 `Claims`: with the embedded key; go-jose
dereferences a nil key. -/
def embeddedClaims {C : Type} (parse : Str → Option Jws) (dec : Str → Option C) (raw : Str) : Out C :=
  match parse raw with
  | none => .err
  | some t =>
    match t.jwk with
    | none => .panic
    | some k => .ofOption (claims dec t k)

end Verif.Jose
