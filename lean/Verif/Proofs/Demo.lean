import Verif.Proofs.Prog
import Verif.Model.System

/-! Concrete data for the non-vacuity examples beside the theorems. -/
namespace Verif

namespace Prog
variable {α : Type}

/-- Run a program against fixed answers. -/
def oracle (ans : (c : Cmd) → c.Res) : Prog α → List Ev × Outcome α
  | .ret a => ([], .done a)
  | .panic => ([], .panicked)
  | .op c k => let (tr, o) := oracle ans (k (ans c)); (⟨c, ans c⟩ :: tr, o)

theorem oracle_exec (ans : (c : Cmd) → c.Res) (p : Prog α) :
    Exec p (oracle ans p).1 (oracle ans p).2 := by
  induction p with
  | ret a => exact .ret a
  | panic => exact .panic
  | op c k ih => exact .step _ _ _ _ _ (ih (ans c))

theorem oracle_all (ans : (c : Cmd) → c.Res) {P : Ev → Prop} (h : ∀ c, P ⟨c, ans c⟩) (p : Prog α) :
    ∀ ev ∈ (oracle ans p).1, P ev := by
  induction p with
  | ret a => simp [oracle]
  | panic => simp [oracle]
  | op c k ih =>
    intro ev hev
    rcases List.mem_cons.1 hev with rfl | hev
    · exact h c
    · exact ih _ ev hev

end Prog

/-- The value of a completed outcome. -/
def Outcome.get? {α : Type} : Outcome α → Option α
  | .done a => some a
  | _ => none

theorem Prog.oracle_done {α : Type} (ans : (c : Cmd) → c.Res) (p : Prog α) (a : α)
    (h : (p.oracle ans).2.get? = some a) : p.Exec (p.oracle ans).1 (.done a) := by
  have := Prog.oracle_exec ans p
  revert this
  generalize (p.oracle ans).2 = o at h
  intro this
  cases o <;> simp [Outcome.get?] at h
  subst h; exact this

/-- A completed run with a decidable property of the answer. -/
theorem Prog.oracle_ex {α : Type} (ans : (c : Cmd) → c.Res) (p : Prog α) (P : α → Prop) [DecidablePred P]
    (h : (p.oracle ans).2.get?.any (fun a => decide (P a)) = true) : ∃ tr a, p.Exec tr (.done a) ∧ P a := by
  cases hg : (p.oracle ans).2.get? with
  | none => rw [hg] at h; simp at h
  | some a =>
    rw [hg] at h
    exact ⟨_, a, Prog.oracle_done ans p a hg, by simpa using h⟩

namespace Demo

/-- A toy environment: the "hash" pads or truncates to 32 bytes. -/
def env : Env where
  parseRequestURI s := !s.isEmpty
  sha256 s := (s ++ List.replicate 32 0).take 32
  blake n s := UInt8.ofNat n :: s
  requestUriOk _ _ := true
  urlString s := some s
  parseProof s := some ⟨some g!"dpop+jwt", some g!"k",
    fun _ => some { jti := s, htm := g!"POST", htu := g!"https://as/token", iat := 100 }⟩
  thumbprint k := some k
  blakeSum s := s

def issuer : Str := g!"https://as"

/-- A verifier of 43 bytes. -/
def verifier : Str := List.replicate 43 97

def client : Client :=
  { clientId := g!"app", clientType := .confidential
    redirectUris := [g!"https://app/cb"]
    responseTypes := [g!"code"]
    responseModes := [g!"query.jwt", g!"query"]
    grantTypes := [g!"authorization_code", g!"refresh_token", g!"client_credentials",
      g!"urn:ietf:params:oauth:grant-type:device_code", g!"urn:ietf:params:oauth:grant-type:token-exchange"] }

/-- A second client with the same redirect URI. -/
def client2 : Client := { client with clientId := g!"other" }

def request : AuthzRequest :=
  { scope := g!"openid offline_access profile", responseType := g!"code", clientId := g!"app"
    redirectUri := g!"https://app/cb", state := List.replicate 32 115, nonce := List.replicate 8 110
    responseMode := some g!"jwt", prompt := some g!"consent"
    codeChallenge := Go.b64 (env.sha256 verifier), codeChallengeMethod := g!"S256", audience := g!"api" }

def authorizeReq : AuthorizeReq := { issuer := issuer, subject := g!"alice", request := some request }

/-- Stores with two registered clients and one resource. -/
def store : St :=
  { clock := 100 * second
    clients := fun id => if id = g!"app" then some client else if id = g!"other" then some client2 else none
    resources := fun u => if u = g!"api" then some ⟨g!"urn:api"⟩ else none }

/-- Answers for single-request examples: everything succeeds. -/
def answers : (c : Cmd) → c.Res
  | .now => (100 * second : Nat)
  | .jti => g!"jti"
  | .clientsGet id => .ok (some { client with clientId := id })
  | .resourcesGet u => .ok (some ⟨u⟩)
  | .arGet _ _ => .ok (some request)
  | .arDel _ _ => .ok ()
  | .arReg _ _ _ => .ok (60 : Nat)
  | .csGet _ _ => .ok (some { issuer := issuer, subject := g!"alice", request := some request })
  | .csDel _ _ => .ok ()
  | .csReg _ _ _ => .ok (60 : Nat)
  | .dsGetUser _ _ => .ok (some (0, {
      client := some client, issuer := issuer, expiresAt := 200,
      request := some ⟨issuer, g!"app", some g!"openid", none⟩, status := .authorizationPending,
      deviceCode := g!"dc" }))
  | .dsGetDev _ _ => .ok (some (0, {
      client := some client, issuer := issuer, expiresAt := 200,
      request := some ⟨issuer, g!"app", some g!"openid offline_access", none⟩, status := .validated,
      deviceCode := g!"dc", subject := some g!"alice", scope := some g!"openid offline_access" }))
  | .dsReg _ _ _ => .ok (120 : Nat)
  | .dsAssign _ _ => ()
  | .dsValidate _ _ _ _ => .ok ()
  | .dsDel _ _ => .ok ()
  | .tkGetVal _ v =>
    .ok (some {
      tokenId := g!"id", value := v, status := .active,
      tokenType := if v = g!"rt" then .refreshToken else .accessToken,
      confirmation := some ⟨g!"jkt"⟩,
      metadata := some {
        issuer := issuer, subject := g!"alice", issuedAt := 50, notBefore := 51,
        expiresAt := 3650, clientId := g!"app", scope := g!"openid profile", audience := g!"api" } })
  | .tkCreate _ _ => .ok ()
  | .tkRevoke _ _ => .ok ()
  | .genCode _ => .ok g!"c0de"
  | .genUri _ => .ok g!"uri"
  | .genDev _ => .ok g!"dc"
  | .genUser _ => .ok g!"uc"
  | .genAT _ => .ok g!"at"
  | .genRT _ => .ok g!"rt2"
  | .dpopExists _ => .ok false
  | .dpopRegister _ => .ok ()

end Demo
end Verif
