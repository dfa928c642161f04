import Verif.Model.Prog
import Verif.Model.Types
import Verif.Model.Device

/-!
The claim generators of `sdk/token/*.go`: what they check of a token specification and
what they hand to the serializer (JWT, CWT, PASETO and verifiable tokens; abstract).
`validation.Required` (ozzo-validation v4) refuses empty strings and zero numbers; the
other rules skip them, which makes no difference after `Required`. `is.URL` is a
parameter. Specifications hold uint64 in Go and naturals here.
-/
namespace Verif.TokenGen
open Verif.Device (unix)

/-- `is.PrintableASCII`: `^[\x20-\x7E]+$`. -/
def printable (s : Str) : Bool := !s.isEmpty && s.all (fun b => decide (0x20 ≤ b) && decide (b ≤ 0x7E))

/-- `validation.Min` / `validation.Max` after `Required`. -/
def within (lo hi n : Nat) : Bool := decide (n ≠ 0) && decide (lo ≤ n) && decide (n ≤ hi)

/-- `uint64(time.Unix(int64(iat), 0).Add(d).Unix())`: the sum wraps around. -/
def maxExpiration (iat d : Nat) : Nat := (iat + d) % 2 ^ 64

/-- The claims handed to the serializer. -/
structure Claims where
  iss : Str := []
  sub : Str := []
  aud : Str := []
  exp : Nat := 0
  nbf : Nat := 0
  iat : Nat := 0
  jti : Str := []
  clientId : Str := []
  scope : Str := []
  cnf : Option Cnf := none
deriving DecidableEq, Repr

/-- access_token.go:107-134 and refresh_token.go:102-129 `validateMeta`, with the
maximal lifetime `d` in seconds. -/
def validateMeta (isURL : Str → Bool) (d now : Nat) (md : TokenMeta) : Bool :=
  printable md.audience && isURL md.issuer && !md.issuer.isEmpty && printable md.subject && printable md.clientId &&
    printable md.scope && within 0 now md.issuedAt && within md.issuedAt md.expiresAt md.notBefore &&
    within md.issuedAt (maxExpiration md.issuedAt d) md.expiresAt

/-- access_token.go:45-103 `Generate`; `none` is the error case. A nil serializer is
`none`. -/
def accessToken (isURL : Str → Bool) (ser : Option (Claims → Option Str)) (t : Option Token) : Prog (Option Str) :=
  match ser, t with
  | none, _ => .ret none
  | _, none => .ret none
  | some ser, some t =>
    if t.tokenId = [] then .ret none
    else match t.metadata with
      | none => .ret none
      | some md => do
        let now ← Prog.call .now
        if validateMeta isURL 7200 (unix now) md then
          return ser { iss := md.issuer, sub := md.subject, aud := md.audience, exp := md.expiresAt,
                       nbf := md.notBefore, iat := md.issuedAt, jti := t.tokenId, clientId := md.clientId,
                       scope := md.scope, cnf := t.confirmation }
        else return none

/-- refresh_token.go:45-98 `Generate`; the confirmation is not copied. -/
def refreshToken (isURL : Str → Bool) (ser : Option (Claims → Option Str)) (t : Option Token) : Prog (Option Str) :=
  match ser, t with
  | none, _ => .ret none
  | _, none => .ret none
  | some ser, some t =>
    if t.tokenId = [] then .ret none
    else match t.metadata with
      | none => .ret none
      | some md => do
        let now ← Prog.call .now
        if validateMeta isURL (14 * 86400) (unix now) md then
          return ser { iss := md.issuer, sub := md.subject, aud := md.audience, exp := md.expiresAt,
                       nbf := md.notBefore, iat := md.issuedAt, jti := t.tokenId, clientId := md.clientId,
                       scope := md.scope }
        else return none

/-- client_assertion.go:98-125 `validateMeta`. -/
def validateAssertion (isURL : Str → Bool) (now : Nat) (md : TokenMeta) : Bool :=
  !md.audience.isEmpty && isURL md.audience && printable md.issuer && printable md.subject &&
    within 0 now md.issuedAt && within md.issuedAt (maxExpiration md.issuedAt 7200) md.expiresAt &&
    decide (md.subject = md.issuer)

/-- client_assertion.go:48-94 `Generate`. -/
def clientAssertion (isURL : Str → Bool) (ser : Option (Claims → Option Str)) (t : Option Token) : Prog (Option Str) :=
  match ser, t with
  | none, _ => .ret none
  | _, none => .ret none
  | some ser, some t =>
    if t.tokenId = [] then .ret none
    else match t.metadata with
      | none => .ret none
      | some md => do
        let now ← Prog.call .now
        if validateAssertion isURL (unix now) md then
          return ser { iss := md.issuer, sub := md.subject, aud := md.audience, exp := md.expiresAt,
                       nbf := md.notBefore, iat := md.issuedAt, jti := t.tokenId }
        else return none

/-- helpers.go:27-47 `IsUsable`. -/
def isUsable (t : Option Token) : Prog Bool :=
  match t with
  | none => .ret false
  | some t =>
    match t.metadata with
    | none => .ret false
    | some md => do
      let now ← Prog.call .now
      if md.expiresAt < unix now then return false
      else if md.notBefore > unix now then return false
      else return true

/-- The claims revealed about an active token (introspection.go:62-70). -/
structure Revealed where
  iss : Str
  aud : Str
  iat : Nat
  exp : Nat
  clientId : Str
  scope : Str
  sub : Str
  jti : Str
deriving DecidableEq, Repr

/-- The payload of a signed introspection answer (introspection.go:57-76). -/
structure IntrospectionClaims where
  iss : Str
  iat : Nat
  active : Bool
  revealed : Option Revealed
deriving DecidableEq, Repr

/-- introspection.go:44-86 `Generate`. `t.Status == ACTIVE && IsUsable(t)` reads the clock
only if the status is active. -/
def introspection (ser : Option (IntrospectionClaims → Option Str)) (t : Option Token) : Prog (Option Str) :=
  match ser, t with
  | none, _ => .ret none
  | _, none => .ret none
  | some ser, some t =>
    match t.metadata with
    | none => .ret none
    | some md => do
      let active ← if t.status = .active then isUsable (some t) else pure false
      let now ← Prog.call .now
      return ser {
        iss := md.issuer, iat := unix now, active := active,
        revealed := if active then some {
          iss := md.issuer, aud := md.audience, iat := md.issuedAt, exp := md.expiresAt, clientId := md.clientId,
          scope := md.scope, sub := md.subject, jti := t.tokenId } else none }

end Verif.TokenGen
