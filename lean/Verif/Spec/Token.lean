import Verif.Model.Prog
import Verif.Spec.Strings

/-! Vocabulary of the token endpoint properties. -/
namespace Verif.Spec

/-- The answer hands out the token `t`. -/
def Returns (a : TokenResp) (t : Token) : Prop := a.accessToken = some t ∨ a.refreshToken = some t

/-- The answer hands out some token. -/
def ReturnsToken (a : TokenResp) : Prop := a.accessToken.isSome = true ∨ a.refreshToken.isSome = true

instance (a : TokenResp) : Decidable (ReturnsToken a) := inferInstanceAs (Decidable (_ ∨ _))

/-- The answer reports success. -/
def Succeeds (a : TokenResp) : Prop := a.goErr = false

/-- An interface call reported an error. -/
def Failed (ev : Ev) : Prop :=
  match ev with
  | ⟨.now, _⟩ => False
  | ⟨.jti, _⟩ => False
  | ⟨.dsAssign .., _⟩ => False
  | ⟨.clientsGet _, r⟩ => ∃ e, r = .error e
  | ⟨.resourcesGet _, r⟩ => ∃ e, r = .error e
  | ⟨.arGet .., r⟩ => ∃ e, r = .error e
  | ⟨.arDel .., r⟩ => ∃ e, r = .error e
  | ⟨.arReg .., r⟩ => ∃ e, r = .error e
  | ⟨.csGet .., r⟩ => ∃ e, r = .error e
  | ⟨.csDel .., r⟩ => ∃ e, r = .error e
  | ⟨.csReg .., r⟩ => ∃ e, r = .error e
  | ⟨.dsGetUser .., r⟩ => ∃ e, r = .error e
  | ⟨.dsGetDev .., r⟩ => ∃ e, r = .error e
  | ⟨.dsReg .., r⟩ => ∃ e, r = .error e
  | ⟨.dsValidate .., r⟩ => ∃ e, r = .error e
  | ⟨.dsDel .., r⟩ => ∃ e, r = .error e
  | ⟨.tkGetVal .., r⟩ => ∃ e, r = .error e
  | ⟨.tkCreate .., r⟩ => ∃ e, r = .error e
  | ⟨.tkRevoke .., r⟩ => ∃ e, r = .error e
  | ⟨.genCode _, r⟩ => ∃ e, r = .error e
  | ⟨.genUri _, r⟩ => ∃ e, r = .error e
  | ⟨.genDev _, r⟩ => ∃ e, r = .error e
  | ⟨.genUser _, r⟩ => ∃ e, r = .error e
  | ⟨.genAT _, r⟩ => ∃ e, r = .error e
  | ⟨.genRT _, r⟩ => ∃ e, r = .error e
  | ⟨.dpopExists _, r⟩ => ∃ e, r = .error e
  | ⟨.dpopRegister _, r⟩ => ∃ e, r = .error e

/-- The store honours its contract: a lookup that does not fail returns an object
(never a nil pointer without error). -/
def StoreContract (ev : Ev) : Prop :=
  match ev with
  | ⟨.clientsGet _, r⟩ => r ≠ .ok none
  | ⟨.resourcesGet _, r⟩ => r ≠ .ok none
  | ⟨.arGet .., r⟩ => r ≠ .ok none
  | ⟨.csGet .., r⟩ => r ≠ .ok none
  | ⟨.dsGetUser .., r⟩ => r ≠ .ok none
  | ⟨.dsGetDev .., r⟩ => r ≠ .ok none
  | ⟨.tkGetVal .., r⟩ => r ≠ .ok none
  | _ => True

/-- Seconds since the epoch. -/
def seconds (ns : Nat) : Nat := ns / 1000000000

/-- What C21 demands of a token minted at clock value `now`. -/
def LifetimeAt (now : Nat) (t : Token) : Prop :=
  ∃ md, t.metadata = some md ∧ md.issuedAt = seconds now ∧
    ((t.tokenType = .accessToken ∧ md.notBefore = md.issuedAt + 1 ∧ md.expiresAt = md.issuedAt + 3600) ∨
     (t.tokenType = .refreshToken ∧ md.notBefore = md.issuedAt + 1 ∧ md.expiresAt = md.issuedAt + 604800) ∨
     (t.tokenType = .accessToken ∧ md.notBefore = 0 ∧ md.expiresAt = md.issuedAt + 60))

/-- A token carries these claims and nothing else decides them. -/
structure Carries (t : Token) (issuer subject clientId scope audience : Str) (cnf : Option Cnf) : Prop where
  metadata : ∃ md, t.metadata = some md ∧ md.issuer = issuer ∧ md.subject = subject ∧
    md.clientId = clientId ∧ md.scope = scope ∧ md.audience = audience
  confirmation : t.confirmation = cnf
  active : t.status = .active

end Verif.Spec

namespace Verif.Spec

/-- The resource store either finds the resource or says it does not exist. -/
def ResourceContract (ev : Ev) : Prop :=
  match ev with
  | ⟨.resourcesGet _, r⟩ => r ≠ .error .other
  | _ => True

end Verif.Spec
