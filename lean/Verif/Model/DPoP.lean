import Verif.Model.Prog
import Verif.Model.Env
import Verif.Go.Base64

/-! `sdk/dpop/verifier.go` -/
namespace Verif.DPoP

/-- sdk/dpop/api.go:27 `HeaderType`. -/
def headerType : Str := g!"dpop+jwt"

/-- sdk/dpop/api.go:29 `ExpirationTreshold`, in nanoseconds. -/
def threshold : Nat := 15 * 1000000000

/-- What `CleanURL` reads of `*http.Request`. -/
structure Target where
  tls : Bool := true
  /-- the `X-Forwarded-Scheme` header, empty if absent -/
  forwardedScheme : Str := []
  host : Str := []
  path : Str := []
deriving DecidableEq, Repr

/-- sdk/dpop/url.go:26-39 `CleanURL`. -/
def Target.clean (t : Target) : Str :=
  let scheme := if t.tls then g!"https" else g!"http"
  let scheme := if t.forwardedScheme ≠ [] then t.forwardedScheme else scheme
  scheme ++ g!"://" ++ t.host ++ t.path

/-- verifier.go:85-90: the accepted HTTP methods. -/
def methods : List Str :=
  [g!"CONNECT", g!"DELETE", g!"GET", g!"HEAD", g!"OPTIONS", g!"PATCH", g!"POST", g!"PUT", g!"TRACE"]

/-- Parameters of `Verify` with its two options (options.go:29-40). -/
structure VerifyReq where
  htm : Str
  htu : Str
  proof : Str
  tokenValue : Option Str := none
  tokenConfirmation : Option Str := none
deriving DecidableEq, Repr

/-- Seconds of a clock value. -/
def unix (ns : Nat) : Nat := ns / 1000000000

/-- `uint64(now.Add(-threshold).Unix())`: negative seconds wrap to a huge value
(verifier.go:223). `Unix` rounds towards minus infinity. -/
def unixMinus (ns : Nat) : Nat :=
  if ns < threshold then 2 ^ 64 - ((threshold - ns + 999999999) / 1000000000)
  else (ns - threshold) / 1000000000

/-- verifier.go:153-201 `validateProofHeader` and `extractProofClaims`: the
embedded key and the claims it verifies. -/
def open_ (p : Proof) : Option (Str × ProofClaims) :=
  if p.typ = some headerType then
    match p.jwk with
    | none => none
    | some k => (p.claims k).map fun c => (k, c)
  else none

/-- verifier.go:116-151: thumbprint and token binding, after the replay check. -/
def finish (E : Env) (req : VerifyReq) (key : Str) (claims : ProofClaims) : Option Str :=
  match E.thumbprint key with
  | none => none
  | some thumb =>
    match req.tokenValue with
    | none => some thumb
    | some tv =>
      match claims.ath with
      | none => none
      | some ath =>
        if ath ≠ Go.b64 (E.sha256 tv) then none
        else match req.tokenConfirmation with
          | none => some thumb
          | some jkt => if thumb ≠ jkt then none else some thumb

/-- verifier.go:231-233: the identifier under which a proof is remembered. -/
def proofId (E : Env) (jti : Str) : Str := Go.b64 (E.blakeSum jti)

/-- verifier.go:223: the proof is older than the threshold. -/
def tooOld (now : Nat) (c : ProofClaims) : Bool := decide (unixMinus now > c.iat)

/-- verifier.go:228: the proof comes from the future, beyond the threshold. -/
def tooNew (now : Nat) (c : ProofClaims) : Bool := decide (unix (now + threshold) < c.iat)

/-- verifier.go:100-151: replay check, registration, then the bindings. -/
def replay (E : Env) (req : VerifyReq) (key : Str) (claims : ProofClaims) : Prog (Option Str) := do
  match ← Prog.call (.dpopExists (proofId E claims.jti)) with
  | .error _ => return none
  | .ok true => return none
  | .ok false =>
    match ← Prog.call (.dpopRegister (proofId E claims.jti)) with
    | .error _ => return none
    | .ok () => return finish E req key claims

/-- verifier.go:204-229 (`validateProofClaims`): issuance time window; `time.Now`
is read twice (lines 223 and 228). -/
def fresh (claims : ProofClaims) : Prog Bool := do
  let now1 ← Prog.call .now
  if tooOld now1 claims then return false
  else
    let now2 ← Prog.call .now
    return !tooNew now2 claims

/-- verifier.go:61-151 `Verify`; the answer is the key thumbprint or an error. -/
def verify (E : Env) (req : VerifyReq) : Prog (Option Str) :=
  if req.htm = [] ∨ req.htu = [] ∨ req.proof = [] then .ret none
  else match E.urlString req.htu with
    | none => .ret none
    | some u =>
      if ¬ (Go.toUpper req.htm) ∈ methods then .ret none
      else match E.parseProof req.proof with
        | none => .ret none
        | some p =>
          match open_ p with
          | none => .ret none
          | some (key, claims) =>
            if u = [] then .ret none
            else if claims.htm ≠ req.htm then .ret none
            else if claims.htu ≠ u then .ret none
            else do
              if ← fresh claims then replay E req key claims else return none

end Verif.DPoP
