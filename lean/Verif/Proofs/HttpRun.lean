import Verif.Proofs.HttpDemo
import Verif.Proofs.DemoRun
import Verif.Spec.HttpSystem

/-! Concrete histories of the HTTP server for witnesses and non-vacuity examples. -/
namespace Verif
open Verif.Spec

/-- The answer to HTTP request number `i`, with where it was sent and what it says. -/
def Http.answerTo (c : Http.Conf) (i : Nat) : Option (Http.Route × Http.Req × Http.Resp) :=
  match c.threads[i]? with
  | some ⟨route, r, .ret a⟩ => some (route, r, a)
  | _ => none

theorem Http.answerTo_some {c : Http.Conf} {i : Nat} {x : Http.Route × Http.Req × Http.Resp} (h : Http.answerTo c i = some x) :
    Http.Answered c i x.1 x.2.1 x.2.2 := by
  unfold Http.answerTo at h
  split at h
  · rename_i heq
    cases h
    exact ⟨_, heq, rfl, rfl, rfl⟩
  · cases h

/-- A decidable property of the answer to HTTP request `i`. -/
theorem Http.answer_ex {c : Http.Conf} {i : Nat} (P : Http.Route → Http.Req → Http.Resp → Prop) [∀ x y z, Decidable (P x y z)]
    (h : (Http.answerTo c i).any (fun x => decide (P x.1 x.2.1 x.2.2)) = true) :
    ∃ route r a, Http.Answered c i route r a ∧ P route r a := by
  cases hg : Http.answerTo c i with
  | none => rw [hg] at h; simp at h
  | some x =>
    rw [hg] at h
    exact ⟨x.1, x.2.1, x.2.2, Http.answerTo_some hg, by simpa using h⟩

/-- Tokens got for a code. -/
theorem Http.got_of {c : Http.Conf} {i : Nat} (code : Str) (P : Http.TokenBody → Prop) [DecidablePred P]
    (h : (Http.answerTo c i).any (fun x => decide (x.1 = .token ∧ x.2.1.formValue g!"grant_type" = g!"authorization_code" ∧
      x.2.1.formValue g!"code" = code ∧ x.2.2.tokens?.any (fun b => decide (P b)) = true)) = true) :
    ∃ r b, GotTokens c i code r b ∧ P b := by
  obtain ⟨_, r, a, h1, rfl, h2, h3, h4⟩ := Http.answer_ex (fun x y z => x = .token ∧
    y.formValue g!"grant_type" = g!"authorization_code" ∧ y.formValue g!"code" = code ∧
      z.tokens?.any (fun b => decide (P b)) = true) h
  cases hb : a.tokens? with
  | none => rw [hb] at h4; simp at h4
  | some b =>
    obtain rfl := Http.Resp.tokens?_eq hb
    rw [hb] at h4
    exact ⟨r, b, ⟨h1, h2, h3⟩, by simpa using h4⟩

instance Http.decSequential : ∀ n ls, Decidable (Http.Sequential n ls)
  | _, [] => isTrue trivial
  | n, .arrive _ _ :: ls => Http.decSequential (n + 1) ls
  | n, .run _ _ :: ls => @instDecidableAnd _ _ _ (Http.decSequential n ls)
  | n, .tick _ :: ls => Http.decSequential n ls

namespace Demo

/-- Stores with three registered clients that have keys; `good` is confidential. -/
def webStore : St :=
  { clock := 100 * second
    clients := fun id => if id = g!"app" then some (httpClient id) else if id = g!"other" then some (httpClient id)
      else if id = g!"good" then some { httpClient id with clientType := .confidential } else none
    resources := fun u => if u = g!"api" then some ⟨g!"urn:api"⟩ else none }

/-- The next calls of HTTP request `i` succeed; generators answer with the given strings. -/
def webCalls (i : Nat) (l : List Str) : List Http.Label := l.map fun s => .run i { str := s }

/-- The user visits /authorize. -/
def webLogin : Http.Req where
  method := g!"GET"
  query := form [(g!"client_id", g!"app"), (g!"request", g!"ro")]
  basic := some (g!"hello", g!"world")
  target := { host := g!"as", path := g!"/authorize" }

/-- The public client `app` posts a form. -/
def webForm (l : List (Str × Str)) : Http.Req where
  method := g!"POST"
  query := form [(g!"client_id", g!"app")]
  post := form l
  target := { host := g!"as", path := g!"/token" }

def webAuthorize (i : Nat) : List Http.Label := .arrive .authorize webLogin :: webCalls i [[], [], g!"c0de", [], []]

def webRedeem (i : Nat) : List Http.Label :=
  .arrive .token httpCode :: webCalls i [[], [], [], [], [], g!"id-at", g!"at", [], [], g!"id-rt", g!"rt", [], []]

/-- The client asks about the token `t`. -/
def webIntrospect (i : Nat) (t : Str) : List Http.Label :=
  .arrive .introspect (webForm [(g!"token", t)]) :: webCalls i [[], [], [], []]

/-- The client gives the token `t` up. -/
def webRevoke (i : Nat) (t : Str) : List Http.Label :=
  .arrive .revoke (webForm [(g!"token", t)]) :: webCalls i [[], [], [], []]

/-- The client refreshes with `t`. -/
def webRefresh (i : Nat) (t : Str) : List Http.Label :=
  .arrive .token (webForm [(g!"grant_type", g!"refresh_token"), (g!"refresh_token", t)]) ::
    webCalls i [[], [], [], [], [], g!"id-at2", g!"at2", [], [], g!"id-rt2", g!"rt2", [], [], []]

/-- The client `good`, with a signed assertion, asks for a token of its own. -/
def webCredentials (i : Nat) : List Http.Label :=
  .arrive .token {
    method := g!"POST"
    post := form [(g!"client_assertion_type", g!"urn:ietf:params:oauth:client-assertion-type:jwt-bearer"),
      (g!"client_assertion", g!"assertion"), (g!"grant_type", g!"client_credentials")]
    target := { host := g!"as", path := g!"/token" } } ::
    webCalls i [[], [], [], [], g!"id-cc", g!"cc", [], [], []]

/-- A whole life of tokens over HTTP: they are issued, used and given up. -/
def web : List Http.Label :=
  webAuthorize 0 ++ webRedeem 1 ++ webCredentials 2 ++ [.tick (2 * second)] ++ webIntrospect 3 g!"at" ++ webRevoke 4 g!"at" ++
    webIntrospect 5 g!"at" ++ webRefresh 6 g!"rt" ++ webRevoke 7 g!"rt" ++ webRefresh 8 g!"rt"

theorem webStore_empty : Empty webStore := ⟨fun _ => rfl, fun _ => rfl, rfl, fun _ => rfl, fun _ => rfl, fun _ => rfl,
  fun _ => rfl, fun _ => rfl⟩

/-- Two redemptions of one code at /token that overlap. -/
def webOverlap : List Http.Label :=
  webAuthorize 0 ++ [.arrive .token httpCode, .arrive .token httpCode] ++ webCalls 1 [[], [], []] ++
  webCalls 2 [[], [], [], [], [], g!"id-at", g!"at", [], [], g!"id-rt", g!"rt", [], []] ++
  webCalls 1 [[], [], g!"id-at1", g!"at1", [], [], g!"id-rt1", g!"rt1", [], []]

/-- A redemption with a proof of possession. -/
def webProof (i : Nat) : List Http.Label :=
  .arrive .token { httpCode with dpop := g!"proof" } ::
    webCalls i [[], [], [], [], [], [], [], [], [], g!"id-at", g!"at", [], [], g!"id-rt", g!"rt", [], []]

end Demo
end Verif
