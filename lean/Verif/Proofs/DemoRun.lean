import Verif.Proofs.Demo
import Verif.Proofs.Authorization
import Verif.Spec.System

/-! Concrete histories for witnesses and non-vacuity examples. -/
namespace Verif
open Verif.Spec

/-- The token request number `i` with its answer. -/
def tokenAnswer (c : Conf) (i : Nat) : Option (TokenReq × TokenResp) :=
  match c.threads[i]? with
  | some ⟨.token (some q), .ret (.token a)⟩ => some (q, a)
  | _ => none

theorem tokenAnswer_some {c : Conf} {i : Nat} {q : TokenReq} {a : TokenResp} (h : tokenAnswer c i = some (q, a)) :
    Answered c i (.token (some q)) (.token a) := by
  unfold tokenAnswer at h
  split at h
  · rename_i q' a' heq
    simp at h
    obtain ⟨rfl, rfl⟩ := h
    exact ⟨_, heq, rfl, rfl⟩
  · simp at h

/-- A decidable property of the answer to token request `i`. -/
theorem tokenAnswer_ex {c : Conf} {i : Nat} (P : TokenReq → TokenResp → Prop) [∀ q a, Decidable (P q a)]
    (h : (tokenAnswer c i).any (fun x => decide (P x.1 x.2)) = true) :
    ∃ q a, Answered c i (.token (some q)) (.token a) ∧ P q a := by
  cases hg : tokenAnswer c i with
  | none => rw [hg] at h; simp at h
  | some x =>
    rw [hg] at h
    exact ⟨x.1, x.2, tokenAnswer_some hg, by simpa using h⟩

theorem asked_of {c : Conf} {j : Nat} {r : Req} (h : c.threads[j]?.map Thread.req = some r) : Asked c j r := by
  cases hg : c.threads[j]? with
  | none => rw [hg] at h; simp at h
  | some th => rw [hg] at h; exact ⟨th, hg, by simpa using h⟩

/-- A successful redemption with a decidable property. -/
theorem redeems_of {c : Conf} {i : Nat} {iss : Str} {g : GrantCode} (P : TokenReq → TokenResp → Prop)
    [∀ q a, Decidable (P q a)]
    (h : (tokenAnswer c i).any (fun x => decide ((x.1.issuer = iss ∧ x.1.grant = some (.authorizationCode g) ∧
      x.2.goErr = false) ∧ P x.1 x.2)) = true) : ∃ q a, Redeems c i iss g.code q g a ∧ P q a := by
  obtain ⟨q, a, ha, ⟨h1, h2, h3⟩, h4⟩ := tokenAnswer_ex (fun q a => (q.issuer = iss ∧
    q.grant = some (.authorizationCode g) ∧ a.goErr = false) ∧ P q a) h
  exact ⟨q, a, ⟨ha, h1, h2, rfl, h3⟩, h4⟩

/-- The session stored for a request submitted directly. -/
theorem codeFor_of {E : Env} {c : Conf} {j : Nat} {code : Str} {q : AuthorizeReq} {sub eff : AuthzRequest}
    (h1 : c.threads[j]?.map Thread.req = some (.authorize (some q))) (h2 : q.request = some sub)
    (h3 : sub.requestUri = none) (h4 : Authorization.checkRequest E (some sub) = .ok eff)
    (h5 : (c.log.any fun e => decide (e.tid = j ∧
      e.cmd = .csReg q.issuer code { issuer := q.issuer, subject := q.subject, request := some eff })) = true) :
    CodeFor c j q.issuer code q sub eff := by
  obtain ⟨r, e, _, he, _⟩ := Authorization.checkRequest_ok h4
  simp at e; subst e
  obtain ⟨e, he', h⟩ := List.any_eq_true.1 h5
  obtain ⟨g1, g2⟩ := of_decide_eq_true h
  exact ⟨asked_of h1, rfl, ⟨sub, .direct sub h2 h3, he⟩, e, he', g1, g2⟩

namespace Demo

theorem store_empty : Empty store := ⟨fun _ => rfl, fun _ => rfl, rfl, fun _ => rfl, fun _ => rfl, fun _ => rfl,
  fun _ => rfl, fun _ => rfl⟩

/-- The demo hash is injective, so a history with one issuer has no key clash. -/
theorem noKeyClash {c : Conf} (h : ∀ e ∈ c.log, ∀ x ∈ cells e.cmd, x.2.1 = issuer) : NoKeyClash env c := by
  intro e he e' he' k i n i' n' h1 h2 hk
  have e1 := h e he _ h1
  have e2 := h e' he' _ h2
  simp only at e1 e2
  subst e1; subst e2
  refine ⟨rfl, ?_⟩
  cases k <;> simpa [keyOf, Store.codeKey, Store.requestKey, Store.userKey, Store.devKey, Store.tokenKey, env] using hk

/-- The next calls of request `i` succeed; generators answer with the given strings. -/
def calls (i : Nat) (l : List Str) : List Label := l.map fun s => .run i { str := s }

/-- An authorization that hands out the code `c0de`. -/
def authorizeRun (i : Nat) : List Label :=
  .arrive (.authorize (some authorizeReq)) :: calls i [[], g!"c0de", []]

/-- A correct redemption of the code of the examples. -/
def codeReq : TokenReq :=
  { issuer := issuer, client := some client, grantType := g!"authorization_code"
    grant := some (.authorizationCode ⟨g!"c0de", g!"https://app/cb", verifier⟩) }

/-- The calls of a redemption. -/
def redeemCalls (i : Nat) : List Label :=
  calls i [[], [], [], [], g!"id-at", g!"at", [], [], g!"id-rt", g!"rt", []]

/-- An authorization followed by a correct redemption of its code. -/
def happy : List Label := authorizeRun 0 ++ .arrive (.token (some codeReq)) :: redeemCalls 1

theorem noKeyClash_of {c : Conf} (h : (c.log.all fun e => (cells e.cmd).all fun x => x.2.1 == issuer) = true) :
    NoKeyClash env c := by
  refine noKeyClash fun e he x hx => ?_
  have := List.all_eq_true.1 (List.all_eq_true.1 h e he) x hx
  simpa using this

/-- The answer to introspection request number `i`. -/
def introspection (c : Conf) (i : Nat) : Option IntrospectResp :=
  match c.threads[i]? with
  | some ⟨.introspect _, .ret (.introspect a)⟩ => some a
  | _ => none

/-- A token request of the example client. -/
def tokenReq (type : Str) (g : Grant) : Req :=
  .token (some { issuer := issuer, client := some client, grantType := type, grant := some g })

def refreshReq (v : Str) : Req := tokenReq g!"refresh_token" (.refreshToken v)

def exchangeReq (v : Str) : Req :=
  tokenReq g!"urn:ietf:params:oauth:grant-type:token-exchange"
    (.tokenExchange { subjectToken := v, subjectTokenType := g!"urn:ietf:params:oauth:token-type:access_token" })

def refReq (v : Str) : TokenRefReq := { issuer := issuer, client := some client, token := v }

/-- Refresh without rotation. -/
def refreshRun (i : Nat) (v id at_ : Str) : List Label :=
  .arrive (refreshReq v) :: calls i [[], [], [], [], id, at_, []]

/-- Refresh with rotation. -/
def rotateRun (i : Nat) (v id at_ id' rt : Str) : List Label :=
  .arrive (refreshReq v) :: calls i [[], [], [], [], id, at_, [], [], id', rt, [], []]

def revokeRun (i : Nat) (v : Str) : List Label := .arrive (.revoke (some (refReq v))) :: calls i [[], [], []]

def introspectRun (i : Nat) (v : Str) : List Label := .arrive (.introspect (some (refReq v))) :: calls i [[], []]

/-- A check for the freshness of the generated ids and values. -/
def freshCheck (c : Conf) : Bool :=
  (List.range c.log.length).all fun n => (List.range c.log.length).all fun n' =>
    match c.log[n]?.map Entry.cmd, c.log[n']?.map Entry.cmd with
    | some (.tkCreate i t), some (.tkCreate i' t') =>
      n == n' || (t.tokenId != t'.tokenId && (i != i' || t.value != t'.value))
    | _, _ => true

theorem freshTokens_of {c : Conf} (h : freshCheck c = true) : FreshTokens c := by
  have key : ∀ n n' i i' t t', Creates c n i t → Creates c n' i' t' →
      n = n' ∨ (t.tokenId ≠ t'.tokenId ∧ (i ≠ i' ∨ t.value ≠ t'.value)) := by
    rintro n n' i i' t t' ⟨e, h1, h2⟩ ⟨e', h1', h2'⟩
    have hn := (List.getElem?_eq_some_iff.1 h1).1
    have hn' := (List.getElem?_eq_some_iff.1 h1').1
    have := List.all_eq_true.1 (List.all_eq_true.1 h n (List.mem_range.2 hn)) n' (List.mem_range.2 hn')
    simpa [h1, h1', h2, h2'] using this
  refine ⟨fun n n' i i' t t' h1 h2 he => ?_, fun n n' i t t' h1 h2 he => ?_⟩
  · rcases key n n' i i' t t' h1 h2 with h | h
    · exact h
    · exact absurd he h.1
  · rcases key n n' i i t t' h1 h2 with h | ⟨_, h | h⟩
    · exact h
    · exact absurd rfl h
    · exact absurd he h

end Demo
end Verif
