import Verif.Model.Jose
import Verif.Model.Prog
import Verif.Model.Device

/-! `server/clientauthentication` -/
namespace Verif.ClientAuth
open Jose

/-- oidc/const.go: the assertion types. -/
def typeBearer : Str := g!"urn:ietf:params:oauth:client-assertion-type:jwt-bearer"
def typeAttestation : Str := g!"urn:ietf:params:oauth:client-assertion-type:jwt-client-attestation"

/-- `clientv1.AuthenticateRequest` (the fields that are read). -/
structure AuthReq where
  assertionType : Option Str := none
  assertion : Option Str := none
deriving DecidableEq, Repr

/-- `clientv1.AuthenticateResponse`. -/
structure AuthResp where
  error : Option OErr := none
  client : Option Client := none
deriving DecidableEq, Repr

/-- What `Authenticate` returns: the response pointer and whether the error is nil. -/
structure AuthResult where
  resp : Option AuthResp
  goErr : Bool
deriving DecidableEq, Repr

/-- private_key_jwt.go:43-50 `privateJWTClaims`; `exp` and `iat` are uint64. -/
structure PrivClaims where
  jti : Str := []
  sub : Str := []
  iss : Str := []
  aud : Str := []
  exp : Nat := 0
  iat : Nat := 0
deriving DecidableEq, Repr

/-- client_attestation.go:29-41 `clientAttestationClaims`; `cnf` is nil or holds a
possibly nil key. -/
structure AttClaims where
  iss : Str := []
  sub : Str := []
  exp : Nat := 0
  nbf : Nat := 0
  iat : Nat := 0
  jti : Str := []
  cnf : Option (Option Jwk) := none
deriving DecidableEq, Repr

/-- client_attestation.go:48-55 `clientAttestationPOPClaims`. -/
structure PopClaims where
  iss : Str := []
  aud : Str := []
  exp : Nat := 0
  nbf : Nat := 0
  iat : Nat := 0
  jti : Str := []
deriving DecidableEq, Repr

/-- The parsers the code relies on. -/
structure Parsers where
  /-- `jose.ParseSigned` / `jwt.ParseSigned` with the supported algorithms -/
  parse : Str → Option Jws
  /-- `json.Unmarshal` of the payloads -/
  privClaims : Str → Option PrivClaims
  attClaims : Str → Option AttClaims
  popClaims : Str → Option PopClaims
  /-- `json.Unmarshal` of a key set -/
  jwks : Str → Option (List Jwk)

def fail (c : ErrCode) : AuthResult := ⟨some { error := some { code := c } }, true⟩

/-- private_key_jwt.go:113-147: retrieve the client and check the signature. -/
def privateKeyCheck (P : Parsers) (t : Jws) (iss : Str) : Prog AuthResult := do
  match ← Prog.call (.clientsGet iss) with
  | .error .other => return fail .serverError
  | .error .notFound => return fail .invalidClient
  | .ok none => Prog.panic
  | .ok (some client) =>
    if client.jwks = [] then return fail .invalidClient
    else match P.jwks client.jwks with
      | none => return fail .invalidClient
      | some keys =>
        if validateSignature (some keys) (some t) then return ⟨some { client := some client }, false⟩
        else return fail .invalidClient

/-- private_key_jwt.go:99-103: the claims that are mandatory. -/
def PrivClaims.complete (c : PrivClaims) : Bool :=
  !(c.iss = [] || c.sub = [] || c.aud = [] || c.jti = [] || c.exp = 0)

/-- private_key_jwt.go:58-148 `Authenticate`. -/
def privateKeyJwt (P : Parsers) (req : Option AuthReq) : Prog AuthResult :=
  match req with
  | none => .ret (fail .invalidRequest)
  | some req =>
    match req.assertionType with
    | none => .ret (fail .invalidRequest)
    | some ty =>
      if ty ≠ typeBearer then .ret (fail .invalidRequest)
      else match req.assertion with
        | none => .ret (fail .invalidRequest)
        | some a =>
          if a = [] then .ret (fail .invalidRequest)
          else match P.parse a with
            | none => .ret (fail .invalidRequest)
            | some t =>
              match P.privClaims t.payload with
              | none => .ret (fail .invalidRequest)
              | some c =>
                if ¬ c.complete then .ret (fail .invalidRequest)
                else if c.iss ≠ c.sub then .ret (fail .invalidRequest)
                else do
                  let now ← Prog.call .now
                  if c.exp < Device.unix now then return fail .invalidRequest
                  else privateKeyCheck P t c.iss

/-- `strings.SplitN(s, sep, 2)` with a one-byte separator: the part before the first
separator and, if there is one, the part after it. -/
def cut (sep : UInt8) : Str → Str × Option Str
  | [] => ([], none)
  | b :: r =>
    if b = sep then ([], some r)
    else let (x, y) := cut sep r; (b :: x, y)

/-- client_attestation.go:137-188 `validateClientAttestation`: the attested key (which
may be a nil pointer), or an error. -/
def attestation (P : Parsers) (a : Str) : Prog (Option (Option Jwk)) :=
  match P.parse a with
  | none => .ret none
  | some t =>
    match P.attClaims t.payload with
    | none => .ret none
    | some c =>
      match c.cnf with
      | none => .ret none
      | some key =>
        if c.iss = [] ∨ c.sub = [] ∨ c.exp = 0 then .ret none
        else do
          let now ← Prog.call .now
          if c.exp < Device.unix now then return none
          else
            let now' ← Prog.call .now
            if c.nbf > Device.unix now' then return none
            else match ← Prog.call (.clientsGet c.iss) with
              | .error _ => return none
              | .ok none => Prog.panic
              | .ok (some client) =>
                if client.jwks = [] then return none
                else match P.jwks client.jwks with
                  | none => return none
                  | some keys =>
                    if validateSignature (some keys) (some t) then return some key else return none

/-- client_attestation.go:93-132: check the proof of possession with the attested key
and retrieve the client it names. -/
def proofOfPossession (P : Parsers) (key : Option Jwk) (pop : Str) : Prog AuthResult :=
  match P.parse pop with
  | none => .ret (fail .invalidRequest)
  | some t =>
    match key with
    | none => .panic
    | some key =>
      match claims P.popClaims t key with
      | none => .ret ⟨none, true⟩
      | some c =>
        if c.iss = [] ∨ c.exp = 0 ∨ c.jti = [] ∨ c.aud = [] then .ret ⟨none, true⟩
        else do
          let now ← Prog.call .now
          if c.exp < Device.unix now then return ⟨none, true⟩
          else
            let now' ← Prog.call .now
            if c.nbf > Device.unix now' then return ⟨none, true⟩
            else match ← Prog.call (.clientsGet c.iss) with
              | .error .other => return fail .serverError
              | .error .notFound => return fail .invalidClient
              | .ok client => return ⟨some { client := client }, false⟩

/-- client_attestation.go:58-133 `Authenticate`; a nil request is dereferenced. -/
def clientAttestation (P : Parsers) (req : Option AuthReq) : Prog AuthResult :=
  match req with
  | none => .panic
  | some req =>
    match req.assertionType with
    | none => .ret (fail .invalidRequest)
    | some ty =>
      if ty ≠ typeAttestation then .ret (fail .invalidRequest)
      else match req.assertion with
        | none => .ret (fail .invalidRequest)
        | some a =>
          if a = [] then .ret (fail .invalidRequest)
          else match cut 126 a with
            | (_, none) => .ret (fail .invalidRequest)
            | (att, some pop) => do
              match ← attestation P att with
              | none => return fail .unauthorizedClient
              | some key => proofOfPossession P key pop

end Verif.ClientAuth
