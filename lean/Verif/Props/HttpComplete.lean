import Verif.Proofs.HttpServe
import Verif.Proofs.HttpTransfer
import Verif.Proofs.HttpRun

/-!
What a correct client and a logged-in user get from the example server (C91): the whole
way from /par or /authorize to an introspected token, with anything else going on before
and in between.
-/
namespace Verif.Props
open Verif.Spec Verif.Store

/-- The words that matter survive the cleaning of the scope. -/
theorem effective_word {ar eff : AuthzRequest} (h : Effective ar eff) {w : Str} (hw : HasWord w ar.scope)
    (hc : ¬ SameFold g!"offline_access" w ∨ ar.prompt = some g!"consent") : HasWord w eff.scope := by
  obtain ⟨v, hv, hs⟩ := hw
  rcases hc with hc | hc
  · exact ⟨v, h.scopeKept v hv (fun h' => hc (Eq.trans h' (Eq.symm hs))), hs⟩
  · exact ⟨v, h.scopeConsent hc v hv, hs⟩

/-- **C91** (the code flow over HTTP). After any history, the example user is logged in and
visits /authorize with a request object properly signed by a registered client, which says
(itself or by reference to a pushed request) a well-formed request `ar` for `openid`. Served
without faults, the answer is a redirection to the redirect URI of `ar` with a signed response
holding the state of `ar` and a code. Let anything happen then, for at most 60 seconds,
except that nobody stores or deletes a session under that code: the client that presents the
code at /token with the redirect URI and the verifier gets an access token for an hour, and
also a refresh token if `offline_access` was asked for with consent. Let anything happen
then, for at least a second and at most an hour, except that nobody stores or revokes a
token with this value: introspection of the token answers that it is active and names the
user, the client, the scope, the audience and the key of the proof of possession, if any. -/
theorem C91_flow (S : Http.Server) (s : St) (hls : List Http.Label) (hiss : S.issuer ≠ [])
    (hurl : S.E.parseRequestURI S.issuer = true) (hjarm : ∀ x, (S.jarmSer x).isSome = true)
    {r : Http.Req} {u sub : Str} {c cl : Client} {ar0 ar : AuthzRequest} {chs : List Choice} {n : Nat}
    (hsub : sub ≠ []) (hm : r.method = g!"GET") (hl : LoggedIn r u) (hc : s.clients (r.get g!"client_id") = some c)
    (hk : KnownAs S c u sub) (hsig : ProperlySigned S c (r.get g!"request") ar0)
    (hact : ActsOn S (Http.run S s hls).st ar0 ar) (hwf : WellFormed S.E ar) (ho : HasWord g!"openid" ar.scope)
    (hcl : s.clients ar.clientId = some cl) (hreg : Registered cl ar)
    (hf : Faultless chs) (hn : 7 ≤ chs.length) (hlen : (Http.run S s hls).threads.length = n) :
    ∃ L1 c1, L1 = hls ++ serving n .authorize r chs ∧ c1 = Http.run S s L1 ∧
    ∃ code t eff, Http.Answered c1 n .authorize r ⟨302, .authorization ar.redirectUri .queryJWT t⟩ ∧
      S.jarmSer { state := ar.state, iss := S.issuer, aud := ar.clientId, code := code, exp := seconds c1.st.clock + 60 } =
        some t ∧ Effective ar eff ∧
    ∀ (mid : List Http.Label) (c2 : Http.Conf) (r' : Http.Req) (c' : Client) (cnf : Option Cnf) (chs' : List Choice) (n' : Nat),
      c2 = Http.run S s (L1 ++ mid) → LeavesCode S (callsSince c1 c2) code →
      c2.st.clock ≤ c1.st.clock + 60 * second → Go.runeCount code ≤ 1024 → Presents S.P c2.st r' c' →
      s.clients c'.clientId = some c' → MemFold g!"authorization_code" c'.grantTypes →
      MemFold ar.redirectUri c'.redirectUris → RedeemsFor S r' code ar → Binding S c2.st r' c' cnf → Faultless chs' →
      18 ≤ chs'.length → c2.threads.length = n' →
    ∃ L3 c3, L3 = (L1 ++ mid) ++ serving n' .token r' chs' ∧ c3 = Http.run S s L3 ∧ c3.st.clock = c2.st.clock ∧
    ∃ b, Http.Answered c3 n' .token r' ⟨200, .tokens b⟩ ∧ b.accessToken ≠ [] ∧ b.expiresIn = 3600 ∧
      b.tokenType = (if cnf.isSome then g!"DPoP" else g!"Bearer") ∧ b.scope = eff.scope ∧
      (HasWord g!"offline_access" ar.scope → ar.prompt = some g!"consent" → b.refreshToken ≠ [] ∧ ∃ id,
        Refreshable S c3.st b.refreshToken id ⟨sub, c'.clientId, eff.scope, ar.audience, cnf⟩ (seconds c3.st.clock + 604800)) ∧
    ∀ (mid' : List Http.Label) (c4 : Http.Conf) (r'' : Http.Req) (c'' : Client) (chs'' : List Choice) (n'' : Nat),
      c4 = Http.run S s (L3 ++ mid') → LeavesToken S (callsSince c3 c4) b.accessToken →
      seconds c3.st.clock + 1 ≤ seconds c4.st.clock → seconds c4.st.clock ≤ seconds c3.st.clock + 3600 →
      Presents S.P c4.st r'' c'' → s.clients c''.clientId = some c'' → r''.formValue g!"token" = b.accessToken →
      Faultless chs'' → 5 ≤ chs''.length → c4.threads.length = n'' →
    ∃ i, Http.Answered (Http.run S s ((L3 ++ mid') ++ serving n'' .introspect r'' chs'')) n'' .introspect r''
        ⟨200, .introspection (some i)⟩ ∧ i.sub = sub ∧ i.clientId = c'.clientId ∧ i.scope = eff.scope ∧
      i.aud = ar.audience ∧ i.iss = S.issuer ∧ i.cnf = cnf ∧
      i.tokenType = (if cnf.isSome then g!"DPoP" else g!"Bearer") ∧ seconds c4.st.clock ≤ i.exp := by
  have hcs : ∀ ls, (Http.run S s ls).st.clients = s.clients := fun ls => (Http.clients_const S s ls).1
  obtain ⟨a, h1, code, t, eff, R, rfl, h2, h3, h4, h5⟩ := Http.serve_good (Http.good_authorizeHandler hiss hsub hm hl
    (by rw [hcs]; exact hc) hk hsig hact hwf (by rw [hcs]; exact hcl) hreg hjarm) hf hn hlen
  have hclk : (Http.run S s (hls ++ serving n .authorize r chs)).st.clock = (Http.run S s hls).st.clock := by rw [h5]
  refine ⟨_, _, rfl, rfl, code, t, eff, h1, by rw [hclk]; exact h3, h4, ?_⟩
  rintro mid c2 r' c' cnf chs' n' rfl hleave hage hrunes hp hc' hgt hru hr hb hf' hn' hlen'
  have ho' : HasWord g!"openid" eff.scope := effective_word h4 ho (Or.inl (by decide))
  have hsess := Http.code_left (Http.since s _ mid) hleave (x := some ({ issuer := S.issuer, subject := sub, request := some eff },
    (Http.run S s hls).st.clock + 60 * second)) (by rw [h5]; simp [upd])
  obtain ⟨o, g1, g2, b, rfl, g3, g4, g5, g6, g7, g8⟩ := Http.serve_good (Http.good_tokenHandler hsess
    (by rw [hclk] at hage; exact hage) h4 hwf ho' hp (by rw [hcs]; exact hc') hgt hru hiss hurl h2 hrunes hr hb) hf' hn' hlen'
  refine ⟨_, _, rfl, rfl, g2, b, g1, g3, g4, g5, g6, fun w1 w2 => by rw [g2]; exact g7 (effective_word h4 w1 (Or.inr w2)), ?_⟩
  rintro mid' c4 r'' c'' chs'' n'' rfl hleave' ht1 ht2 hp' hc'' htok hf'' hn'' hlen''
  rw [g2] at ht1 ht2
  obtain ⟨o, k1, i, rfl, k2, k3, k4, k5, k6, k7, k8, k9⟩ := Http.serve_good (Http.good_introspect
    (g8.left (Http.since s _ mid') hleave') hp' (by rw [hcs]; exact hc'') hiss hurl g3 htok ht1 ht2) hf'' hn'' hlen''
  exact ⟨i, k1, k2, k3, k4, k5, k6, k7, k8, Nat.le_trans ht2 k9⟩

/-- **C91** (pushed requests). After any history, a client that authenticates at /par with a
proof of possession and pushes a properly signed well-formed request of its own gets a
request URI. For a minute, whatever else happens except that somebody stores or deletes a
request under this URI, a request object that refers to the URI has the pushed request acted
on (with its response mode and scope made effective). -/
theorem C91_par (S : Http.Server) (s : St) (hls : List Http.Label) (hiss : S.issuer ≠ [])
    {r : Http.Req} {jkt : Str} {c cl : Client} {ar : AuthzRequest} {chs : List Choice} {n : Nat}
    (hm : r.method = g!"POST") (hp : Presents S.P (Http.run S s hls).st r c) (hd : r.dpop ≠ [])
    (hpr : Proves S (Http.run S s hls).st r jkt) (hsig : ProperlySigned S c (r.get g!"request") ar)
    (hu : ar.requestUri = none) (hown : ar.clientId = c.clientId) (hwf : WellFormed S.E ar)
    (hcl : s.clients ar.clientId = some cl) (hreg : Registered cl ar)
    (hf : Faultless chs) (hn : 9 ≤ chs.length) (hlen : (Http.run S s hls).threads.length = n) :
    ∃ L1 c1, L1 = hls ++ serving n .par r chs ∧ c1 = Http.run S s L1 ∧
    ∃ uri eff, uri ≠ [] ∧ Http.Answered c1 n .par r ⟨201, .par S.issuer uri 60⟩ ∧ Effective ar eff ∧
      (HasWord g!"openid" ar.scope → WellFormed S.E eff ∧ HasWord g!"openid" eff.scope) ∧ Registered cl eff ∧
      eff.clientId = ar.clientId ∧
    ∀ (mid : List Http.Label) (c2 : Http.Conf) (ar0 : AuthzRequest), c2 = Http.run S s (L1 ++ mid) →
      LeavesRequest S (callsSince c1 c2) uri → c2.st.clock ≤ c1.st.clock + 60 * second →
      ar0.requestUri = some uri → S.E.requestUriOk S.issuer uri = true → ActsOn S c2.st ar0 eff := by
  have hcs : ∀ ls, (Http.run S s ls).st.clients = s.clients := fun ls => (Http.clients_const S s ls).1
  obtain ⟨a, h1, uri, eff, h2, h3, rfl, h4, h5⟩ := Http.serve_good (Http.good_par hiss hm hp hd hpr hsig hu hown hwf
    (by rw [hcs]; exact hcl) hreg) hf hn hlen
  have e1 : eff.state = ar.state := by have h := congrArg AuthzRequest.state h3.rest; exact h
  have e2 : eff.nonce = ar.nonce := by have h := congrArg AuthzRequest.nonce h3.rest; exact h
  have e3 : eff.codeChallenge = ar.codeChallenge := by have h := congrArg AuthzRequest.codeChallenge h3.rest; exact h
  have e4 : eff.codeChallengeMethod = ar.codeChallengeMethod := by have h := congrArg AuthzRequest.codeChallengeMethod h3.rest; exact h
  have e5 : eff.audience = ar.audience := by have h := congrArg AuthzRequest.audience h3.rest; exact h
  have e6 : eff.clientId = ar.clientId := by have h := congrArg AuthzRequest.clientId h3.rest; exact h
  have e7 : eff.redirectUri = ar.redirectUri := by have h := congrArg AuthzRequest.redirectUri h3.rest; exact h
  have e8 : eff.responseType = ar.responseType := by have h := congrArg AuthzRequest.responseType h3.rest; exact h
  refine ⟨_, _, rfl, rfl, uri, eff, h2, h1, h3, ?_, ?_, e6, ?_⟩
  · intro ho
    have ho' : HasWord g!"openid" eff.scope := effective_word h3 ho (Or.inl (by decide))
    refine ⟨⟨by rw [e1]; exact hwf.state, by rw [e2]; exact hwf.nonce, by rw [e3]; exact hwf.challenge,
      by rw [e4]; exact hwf.method, ?_, by rw [e5]; exact hwf.audience, by rw [e6]; exact hwf.client,
      by rw [e7]; exact hwf.redirect, by rw [e8]; exact hwf.responseType, ?_⟩, ho'⟩
    · intro h0
      rw [h0] at ho'
      exact absurd ((contains_fields [] g!"openid").2 ho') (by decide)
    · intro m hm'
      rw [h3.mode, Option.map_eq_some_iff] at hm'
      obtain ⟨m0, hm0, rfl⟩ := hm'
      unfold effectiveMode
      split
      · split <;> decide
      · exact hwf.responseMode m0 hm0
  · refine ⟨hreg.grant, by rw [e8]; exact hreg.responseType, by rw [e7]; exact hreg.redirectUri, ?_⟩
    intro m hm'
    rw [h3.mode, Option.map_eq_some_iff] at hm'
    obtain ⟨m0, hm0, rfl⟩ := hm'
    have := hreg.responseMode m0 hm0
    rw [e8]
    have hid : effectiveMode ar.responseType (effectiveMode ar.responseType m0) = effectiveMode ar.responseType m0 := by
      unfold effectiveMode
      by_cases h : m0 = g!"jwt"
      · simp only [h, if_true]
        by_cases h' : ar.responseType = g!"code"
        · simp only [h', if_true]; decide
        · simp only [h', if_false]; decide
      · simp only [h, if_false]
    rw [hid]
    exact this
  · rintro mid c2 ar0 rfl hleave hage h6 h7
    refine .pushed uri _ eff h6 h7 (Http.request_left (Http.since s _ mid) hleave
      (x := some (eff, (Http.run S s hls).st.clock + 60 * second)) (by rw [h5]; simp [upd])) (by rw [h4] at hage; exact hage)

/-! ### Example: the whole way, after the history of the other examples -/

theorem callsSince_tick (S : Http.Server) (s : St) (ls : List Http.Label) (d : Nat) :
    callsSince (Http.run S s ls) (Http.run S s (ls ++ [.tick d])) = [] := by
  rw [Http.run_append]
  simp [callsSince, Http.step]

theorem tick_st (S : Http.Server) (s : St) (ls : List Http.Label) (d : Nat) :
    (Http.run S s (ls ++ [.tick d])).st = { (Http.run S s ls).st with clock := (Http.run S s ls).st.clock + d } := by
  rw [Http.run_append]; rfl

theorem demo_wellFormed_http : WellFormed Demo.env { Demo.request with responseMode := some g!"form_post.jwt" } := by
  obtain ⟨h1, h2, h3, h4, h5, h6, h7, h8, h9, -⟩ := demo_wellFormed
  exact ⟨h1, h2, h3, h4, h5, h6, h7, h8, h9, by intro m hm; simp at hm; subst hm; decide⟩

theorem demo_registered_http : Registered (Demo.httpClient g!"app") { Demo.request with responseMode := some g!"form_post.jwt" } := by
  refine ⟨⟨g!"authorization_code", by decide, by decide⟩, ⟨g!"code", by decide, by decide⟩,
    ⟨g!"https://app/cb", by decide, by decide⟩, ?_⟩
  intro m hm
  simp at hm
  subst hm
  exact ⟨g!"form_post.jwt", by decide, by decide⟩

/-- The choices of an undisturbed execution in which the third string is `x`. -/
def thirdIs (x : Str) (n : Nat) : List Choice := [{ str := g!"1" }, { str := g!"2" }, { str := x }] ++ List.replicate n { str := g!"3" }

theorem thirdIs_faultless {x : Str} (hx : x ≠ []) (n : Nat) : Faultless (thirdIs x n) := by
  intro ch hch
  simp only [thirdIs, List.mem_append, List.mem_cons, List.not_mem_nil, or_false, List.mem_replicate] at hch
  rcases hch with (rfl | rfl | rfl) | ⟨-, rfl⟩
  · exact ⟨rfl, by decide⟩
  · exact ⟨rfl, by decide⟩
  · exact ⟨rfl, hx⟩
  · exact ⟨rfl, by decide⟩

/-- The redemption with a proof of possession. -/
def demoRedeem (code : Str) : Http.Req where
  method := g!"POST"
  query := Demo.form [(g!"client_id", g!"app")]
  post := Demo.form [(g!"grant_type", g!"authorization_code"), (g!"code", code), (g!"redirect_uri", g!"https://app/cb"),
    (g!"code_verifier", Demo.verifier)]
  dpop := g!"proof"
  target := { host := g!"as", path := g!"/token" }

/-- The client `good` asks about a token. -/
def demoAsk (v : Str) : Http.Req where
  method := g!"POST"
  post := Demo.form [(g!"client_assertion_type", g!"urn:ietf:params:oauth:client-assertion-type:jwt-bearer"),
    (g!"client_assertion", g!"assertion"), (g!"token", v)]

theorem answerTo_of {c : Http.Conf} {i : Nat} {route : Http.Route} {r : Http.Req} {a : Http.Resp}
    (h : Http.Answered c i route r a) : Http.answerTo c i = some (route, r, a) := by
  obtain ⟨⟨a1, a2, a3⟩, g1, rfl, rfl, g4⟩ := h
  unfold Http.answerTo
  rw [g1]
  cases a3 with
  | ret x => simp only [Http.Thread.answer, Option.some.injEq] at g4; subst g4; rfl
  | panic => simp [Http.Thread.answer] at g4
  | op _ _ => simp [Http.Thread.answer] at g4

/-- The history of the examples and the visit to /authorize. -/
def demoVisit : List Http.Label := Demo.web ++ serving 9 .authorize Demo.webLogin (thirdIs g!"c0de" 4)

theorem demoVisit_facts : (Http.run Demo.server Demo.webStore Demo.web).threads.length = 9 ∧
    (Http.run Demo.server Demo.webStore (demoVisit ++ [.tick (5 * second)])).threads.length = 10 ∧
    (Http.run Demo.server Demo.webStore demoVisit).st.clock = 102 * second ∧
    (Http.run Demo.server Demo.webStore demoVisit).st.proofs (DPoP.proofId Demo.env g!"proof") = none ∧
    (Http.answerTo (Http.run Demo.server Demo.webStore demoVisit) 9).any
      (fun x => x.2.2.body == .authorization g!"https://app/cb" .queryJWT g!"signed:c0de") = true := by decide +kernel

/-- C91: the tokens of the code `c0de` are issued for the key `k` and found active. -/
example : ∃ (L : List Http.Label) (n : Nat) (v : Str) (i : Http.ActiveBody), v ≠ [] ∧ Demo.web <+: L ∧
    Http.Answered (Http.run Demo.server Demo.webStore L) n .introspect (demoAsk v) ⟨200, .introspection (some i)⟩ ∧
    i.sub = g!"hello" ∧ i.clientId = g!"app" ∧ i.cnf = some ⟨g!"k"⟩ := by
  obtain ⟨f1, f2, f3, f4, f5⟩ := demoVisit_facts
  obtain ⟨L1, c1, hL1, hc1, code, t, eff, h1, h2, h3, h4⟩ := C91_flow Demo.server Demo.webStore Demo.web
    (by decide) (by decide) (fun _ => rfl) (r := Demo.webLogin) (u := g!"hello") (sub := g!"hello")
    (c := Demo.httpClient g!"app") (cl := Demo.httpClient g!"app")
    (ar0 := { Demo.request with responseMode := some g!"form_post.jwt" })
    (ar := { Demo.request with responseMode := some g!"form_post.jwt" }) (chs := thirdIs g!"c0de" 4) (n := 9)
    (by decide) rfl ⟨rfl, rfl⟩ (by rfl) (Or.inl ⟨by decide, rfl⟩)
    ⟨by decide, { payload := g!"ro", verifies := fun k => k.key == g!"gk" }, [{ key := g!"gk" }], { key := g!"gk" },
      rfl, rfl, by simp, by decide, Or.inl rfl, by decide, by rfl⟩
    (.itself rfl) demo_wellFormed_http ((contains_fields _ _).1 (by decide)) (by rfl) demo_registered_http
    (thirdIs_faultless (by decide) 4) (by decide) f1
  have hL1' : demoVisit = L1 := hL1.symm
  rw [hL1'] at f2 f3 f4 f5
  have hcode : code = g!"c0de" := by
    have h2' : g!"signed:" ++ code = t := Option.some.inj h2
    have := answerTo_of (hc1 ▸ h1)
    rw [this] at f5
    simp only [Option.any_some, beq_iff_eq, Http.Body.authorization.injEq] at f5
    rw [f5.2.2] at h2'
    simpa using h2'
  subst hcode
  have f6 : (Http.run Demo.server Demo.webStore (L1 ++ [.tick (5 * second)])).st.clock = 107 * second := by
    rw [tick_st]
    show (Http.run Demo.server Demo.webStore L1).st.clock + 5 * second = 107 * second
    rw [f3]; omega
  have f7 : (Http.run Demo.server Demo.webStore (L1 ++ [.tick (5 * second)])).st.proofs (DPoP.proofId Demo.env g!"proof") = none := by
    rw [tick_st]; exact f4
  obtain ⟨L3, c3, hL3, hc3, hck, b, k1, k2, k3, k4, k5, k6, k7⟩ := h4 [.tick (5 * second)] _ (demoRedeem g!"c0de") (Demo.httpClient g!"app")
    (some ⟨g!"k"⟩) (thirdIs g!"x" 15) 10 rfl (by rw [hc1, callsSince_tick]; intro e he; simp at he)
    (by rw [f6, hc1, f3]; decide) (by decide)
    (.named g!"app" rfl (by decide) (by rw [(Http.clients_const _ _ _).1]; rfl) rfl) (by rfl)
    ⟨g!"authorization_code", by decide, by decide⟩ ⟨g!"https://app/cb", by decide, by decide⟩
    ⟨rfl, rfl, rfl, rfl, rfl, by decide, by decide⟩
    (.key g!"k" (by decide) ⟨g!"https://as/token", _, g!"k", _, rfl, by decide, rfl, rfl, rfl, rfl, rfl, rfl, by rw [f6]; decide,
      by rw [f6]; decide, by rw [f6]; decide, fun exp hx => (Option.some_ne_none exp (hx.symm.trans f7)).elim, rfl⟩)
    (thirdIs_faultless (by decide) 15) (by decide) f2
  rw [f6] at hck
  obtain ⟨i, m1, m2, m3, m4, m5, m6, m7, m8, m9⟩ := k7 [.tick (2 * second)] _ (demoAsk b.accessToken)
    { Demo.httpClient g!"good" with clientType := .confidential } (thirdIs g!"x" 2) _ rfl
    (by rw [hc3, callsSince_tick]; intro e he; simp at he)
    (by rw [tick_st, ← hc3]; simp only [seconds, second]; omega) (by rw [tick_st, ← hc3]; simp only [seconds, second]; omega)
    (.key g!"assertion" _ _ _ { key := g!"gk" } rfl rfl rfl (by decide) rfl rfl rfl (by decide) (by decide) (by decide) (by decide) (by rw [tick_st, ← hc3, hck]; show seconds (107 * second + 2 * second) ≤ 1000; decide)
      (by rw [(Http.clients_const _ _ _).1]; rfl) (by decide) rfl (by simp) (by decide) (by decide))
    (by rfl) rfl (thirdIs_faultless (by decide) 2) (by decide) rfl
  refine ⟨_, _, b.accessToken, i, k2, ?_, m1, m2, m3, m7⟩
  rw [hL3, hL1]
  simp only [List.append_assoc]
  exact List.prefix_append _ _

/-- The client pushes its request, with a proof of possession. -/
def demoPush : Http.Req where
  method := g!"POST"
  query := Demo.form [(g!"client_id", g!"app"), (g!"request", g!"ro")]
  dpop := g!"proof"
  target := { host := g!"as", path := g!"/token" }

theorem demoPush_facts : (Http.run Demo.server Demo.webStore Demo.web).st.clock = 102 * second ∧
    (Http.run Demo.server Demo.webStore Demo.web).st.proofs (DPoP.proofId Demo.env g!"proof") = none := by decide +kernel

/-- C91: the client `app` pushes its request, and half a minute later it can be referred to. -/
example : ∃ (L : List Http.Label) (n : Nat) (uri : Str) (eff : AuthzRequest), Demo.web <+: L ∧
    Http.Answered (Http.run Demo.server Demo.webStore L) n .par demoPush ⟨201, .par Demo.issuer uri 60⟩ ∧
    ActsOn Demo.server (Http.run Demo.server Demo.webStore (L ++ [.tick (30 * second)])).st
      { requestUri := some uri } eff ∧ HasWord g!"openid" eff.scope := by
  obtain ⟨f1, f2⟩ := demoPush_facts
  have f0 := demoVisit_facts.1
  generalize Demo.web = W at f0 f1 f2 ⊢
  obtain ⟨L1, c1, hL1, hc1, uri, eff, h1, h2, h3, h4, h5, h6, h7⟩ := C91_par Demo.server Demo.webStore W
    (by decide) (r := demoPush) (jkt := g!"k") (c := Demo.httpClient g!"app") (cl := Demo.httpClient g!"app")
    (ar := { Demo.request with responseMode := some g!"form_post.jwt" }) (chs := thirdIs g!"u" 6) (n := 9) rfl
    (.named g!"app" rfl (by decide) (by rw [(Http.clients_const _ _ _).1]; rfl) rfl) (by decide)
    ⟨g!"https://as/token", _, g!"k", _, rfl, by decide, rfl, rfl, rfl, rfl, rfl, rfl, by rw [f1]; decide,
      by rw [f1]; decide, by rw [f1]; decide, fun exp hx => (Option.some_ne_none exp (hx.symm.trans f2)).elim, rfl⟩
    ⟨by decide, { payload := g!"ro", verifies := fun k => k.key == g!"gk" }, [{ key := g!"gk" }], { key := g!"gk" },
      rfl, rfl, by simp, by decide, Or.inl rfl, by decide, by rfl⟩
    rfl rfl demo_wellFormed_http (by rfl) demo_registered_http (thirdIs_faultless (by decide) 6) (by decide) f0
  refine ⟨L1, 9, uri, eff, by rw [hL1]; exact List.prefix_append _ _, by rw [← hc1]; exact h2, h7 [.tick (30 * second)] _ _ rfl
    (by rw [hc1, callsSince_tick]; intro e he; simp at he) ?_ rfl rfl, (h4 ((contains_fields _ _).1 (by decide))).2⟩
  rw [tick_st, ← hc1]
  show c1.st.clock + 30 * second ≤ _
  exact Nat.add_le_add_left (by decide) _

end Verif.Props
