import Verif.Props.ResourceServer
import Verif.Props.Http

/-!
C83: DPoP proofs are made for the URL that was called. The code takes the scheme of the
URL from the `X-Forwarded-Scheme` header, whatever it holds and whoever sent it.
-/
namespace Verif.Props
open Verif.Spec Verif.Prog Verif.ResourceServer Verif.DPoP

/-- The URL that was called. -/
def calledUrl (t : Target) : Str := (if t.tls then g!"https" else g!"http") ++ g!"://" ++ t.host ++ t.path

theorem clean_called {t : Target} (h : t.forwardedScheme = []) : t.clean = calledUrl t := by
  simp [Target.clean, calledUrl, h]

theorem clean_forwarded {t : Target} (h : t.forwardedScheme ≠ []) :
    t.clean = t.forwardedScheme ++ g!"://" ++ t.host ++ t.path := by
  simp [Target.clean, h]

/-- **C83** (partial, resource server). A DPoP request without the header is let through
only with a proof for the URL that was called; with the header, the URL of the proof still
ends in the host and path that were called. Missing: everything before the host, when there
is a header (`C83_violated`). -/
theorem C83_resource_partial (E : Env) (cli : Cli) (intent : Str) (acr : List Str) (max : Nat) (r : ResourceServer.Req)
    (tr : List Ev) (h : Exec (authorizer E cli intent acr max r) tr (.done .passed)) (tok : Str)
    (hp : Presents r.authorization g!"dpop" tok) :
    ∃ p key claims, E.parseProof r.dpop = some p ∧ p.jwk = some key ∧ p.claims key = some claims ∧
      (r.target.forwardedScheme = [] → E.urlString (calledUrl r.target) = some claims.htu) ∧
      ∃ x, E.urlString (x ++ g!"://" ++ r.target.host ++ r.target.path) = some claims.htu := by
  obtain ⟨a, t, c, p, key, claims, now, -, -, -, h1, h2, h3, -, -, h4, -⟩ := C51_proof_of_possession E cli intent acr max r tr h tok hp
  refine ⟨p, key, claims, h1, h2, h3, fun hf => ?_, ?_⟩
  · rw [← clean_called hf]; exact h4
  · by_cases hf : r.target.forwardedScheme = []
    · exact ⟨_, by rw [← h4]; exact (congrArg E.urlString (clean_called hf)).symm⟩
    · exact ⟨_, by rw [← h4]; exact (congrArg E.urlString (clean_forwarded hf)).symm⟩

/-- **C83** (partial, token endpoint). The same for the tokens of the token endpoint. -/
theorem C83_token_partial (S : Http.Server) (r : Http.Req) (tr : List Ev) (st : Nat) (b : Http.TokenBody)
    (hnil : ∀ id, ⟨.clientsGet id, .ok none⟩ ∉ tr) (h : Exec (Http.serve S .token r) tr (.done ⟨st, .tokens b⟩))
    (hg : r.formValue g!"grant_type" ≠ g!"refresh_token") (hd : r.dpop ≠ []) (hf : r.target.forwardedScheme = []) :
    ∃ p key claims, S.E.parseProof r.dpop = some p ∧ p.jwk = some key ∧ p.claims key = some claims ∧
      S.E.urlString (calledUrl r.target) = some claims.htu := by
  obtain ⟨c, cnf, -, -, -, ⟨h0, -⟩ | ⟨-, -, p, key, claims, thumb, h1, -, h2, h3, -, h4, -⟩⟩ := C64_binding S r tr st b hnil h hg
  · exact absurd h0 hd
  · exact ⟨p, key, claims, h1, h2, h3, by rw [← clean_called hf]; exact h4⟩

/-- **C83 violated** (for every server and every URL). Whoever has a fresh proof for a URL
that ends in `://`, the host and the path of a server can present it to this server: the
beginning of the URL, which names another server, goes into the header. -/
theorem C83_violated_always (E : Env) (t : Target) (x : Str) (hx : x ≠ []) (htm proof : Str) (tr : List Ev) (a : Option Str)
    (h : Exec (verify E { htm := htm, htu := ({ t with forwardedScheme := x } : Target).clean, proof := proof }) tr (.done a))
    (p : Proof) (key thumb : Str) (claims : ProofClaims)
    (hne : htm ≠ [] ∧ proof ≠ [])
    (hm : htm ∈ [g!"CONNECT", g!"DELETE", g!"GET", g!"HEAD", g!"OPTIONS", g!"PATCH", g!"POST", g!"PUT", g!"TRACE"])
    (hparse : E.parseProof proof = some p) (htyp : p.typ = some g!"dpop+jwt") (hkey : p.jwk = some key)
    (hclaims : p.claims key = some claims) (hthumb : E.thumbprint key = some thumb) (hhtm : claims.htm = htm)
    (hhtu : claims.htu = x ++ g!"://" ++ t.host ++ t.path) (hurl : E.urlString claims.htu = some claims.htu)
    (htime : ∀ now, ⟨.now, now⟩ ∈ tr → 15 * second ≤ now ∧ seconds now ≤ claims.iat + 15 ∧ claims.iat ≤ seconds now + 15)
    (hcache : ∀ id r, ⟨.dpopExists id, r⟩ ∈ tr → r = .ok false) (hreg : ∀ id r, ⟨.dpopRegister id, r⟩ ∈ tr → r = .ok ()) :
    a = some thumb := by
  have hc : ({ t with forwardedScheme := x } : Target).clean = claims.htu := by
    rw [hhtu]; exact clean_forwarded hx
  rw [hc] at h
  have hn : claims.htu ≠ [] := by rw [hhtu]; simp [hx]
  exact C38_valid_proof_accepted E _ tr a p key thumb claims h ⟨hne.1, hn, hne.2, hn⟩ hm hparse htyp hkey hclaims hthumb
    hhtm hurl htime hcache hreg (fun tv h => by cases h)

/-- Proofs made for a call of another server, which chose this path. -/
def evilProof : Env :=
  { Demo.env with
    parseProof := fun s => some ⟨some g!"dpop+jwt", some g!"k", fun _ => some
      { jti := s, htm := g!"GET", htu := g!"https://evil/x://rs/time", iat := 100
        ath := some (Go.b64 (Demo.env.sha256 g!"tok")) }⟩ }

/-- What the other server sends. -/
def evilRequest : ResourceServer.Req :=
  { method := g!"GET", target := { host := g!"rs", path := g!"/time", forwardedScheme := g!"https://evil/x" }
    authorization := g!"DPoP tok", dpop := g!"p" }

/-- **C83 violated** (replay at another server). The server `evil` got a token and a proof
for its own URL `https://evil/x://rs/time`; with them it is let through at
`https://rs/time`. -/
theorem C83_violated : ∃ (E : Env) (cli : Cli) (r : ResourceServer.Req) (p : Proof) (key : Str) (claims : ProofClaims) (tr : List Ev),
    Exec (authorizer E cli g!"timestamp:read" [] 30 r) tr (.done .passed) ∧ Presents r.authorization g!"dpop" g!"tok" ∧
    E.parseProof r.dpop = some p ∧ p.jwk = some key ∧ p.claims key = some claims ∧ (∀ s, E.urlString s = some s) ∧
    calledUrl r.target = g!"https://rs/time" ∧ claims.htu = g!"https://evil/x://rs/time" := by
  obtain ⟨tr, a, h, h2⟩ := oracle_ex Demo.answers (authorizer evilProof (demoCli { demoToken with confirmation := some ⟨g!"k"⟩ })
    g!"timestamp:read" [] 30 evilRequest) (fun a => a = .passed) (by decide +kernel)
  exact ⟨evilProof, demoCli { demoToken with confirmation := some ⟨g!"k"⟩ }, evilRequest, _, _, _, tr, h2 ▸ h,
    ⟨g!"DPoP", by decide, by decide, by decide⟩, rfl, rfl, rfl, fun _ => rfl, by decide, rfl⟩

/-- A request without the header is let through (C83_resource_partial). -/
example : ∃ tr, Exec (authorizer demoAth (demoCli { demoToken with confirmation := some ⟨g!"k"⟩ }) g!"timestamp:read" [] 30
      { method := g!"GET", target := { host := g!"rs", path := g!"/" }, authorization := g!"DPoP tok", dpop := g!"p" }) tr
      (.done .passed) := by
  obtain ⟨tr, a, h, h2⟩ := oracle_ex Demo.answers (authorizer demoAth (demoCli { demoToken with confirmation := some ⟨g!"k"⟩ })
    g!"timestamp:read" [] 30 { method := g!"GET", target := { host := g!"rs", path := g!"/" }, authorization := g!"DPoP tok", dpop := g!"p" })
    (fun a => a = .passed) (by decide +kernel)
  exact ⟨tr, h2 ▸ h⟩

/-- A token request with a proof gets tokens (C83_token_partial). -/
example : ∃ tr a, Exec (Http.serve Demo.server .token { Demo.httpCode with dpop := g!"p" }) tr (.done a) ∧
    a.status = 200 ∧ { Demo.httpCode with dpop := g!"p" }.target.forwardedScheme = [] :=
  oracle_ex Demo.httpAnswers _ (fun (a : Http.Resp) => a.status = 200 ∧ _) (by decide +kernel)

/-- A proof for the other URL that is accepted (C83_violated_always). -/
example : ∃ tr a, Exec (verify evilProof { htm := g!"GET", htu := (evilRequest.target).clean, proof := g!"p" }) tr (.done a) ∧
    a = some g!"k" :=
  oracle_ex Demo.answers _ (fun a => a = some g!"k") (by decide +kernel)

end Verif.Props
