import Verif.Proofs.Http
import Verif.Proofs.TokenFacts
import Verif.Proofs.NoPanic
import Verif.Props.Token
import Verif.Props.DPoP
import Verif.Props.TokenGen
import Verif.Proofs.HttpDemo
import Verif.Proofs.DeviceRun

/-! Properties of the HTTP endpoints of the example server. -/
set_option linter.unusedSimpArgs false
namespace Verif.Props
open Verif.Prog Verif.Spec Verif.Http Verif.TokenSvc

/-- **C63.** On the endpoints for clients, anything but a 401 answer, and any call that does
more than reading the clock and the registered clients, implies that the request comes from
a registered client: named if it is public, else proved with a registered key or with a
client attestation. -/
theorem C63_client_required (S : Server) (route : Route) (r : Http.Req) (tr : List Ev) (o : Outcome Http.Resp)
    (hroute : route ∉ [Route.authorize, .device])
    (hnil : ∀ id, ⟨.clientsGet id, .ok none⟩ ∉ tr) (h : Exec (Http.serve S route r) tr o)
    (hx : (∃ ev ∈ tr, ¬ ReadsClients ev) ∨ ∃ a, o = .done a ∧ a.status ≠ 401) :
    ∃ c, FromClient S.P r tr c := by
  have key : ∀ k, Exec (clientAuth S r k) tr o → ∃ c, FromClient S.P r tr c := by
    intro k hk
    rcases clientAuth_exec hk hnil with ⟨h1, h2, _⟩ | ⟨c, t1, t2, rfl, _, hf, _⟩
    · rcases hx with ⟨ev, hev, hn⟩ | ⟨a, ha, hs⟩
      · exact absurd (h1 ev hev) hn
      · obtain ⟨e, rfl⟩ := h2 a ha
        exact absurd rfl hs
    · exact ⟨c, hf.mono fun ev hev => List.mem_append_left _ hev⟩
  cases route with
  | par => exact key _ h
  | token => exact key _ h
  | introspect => exact key _ h
  | revoke => exact key _ h
  | deviceAuthorize => exact key _ h
  | authorize => simp at hroute
  | device => simp at hroute

/-- **C63** (the endpoints for users). Anything but a 401 answer, and any call at all, implies
that the request carries the credentials of the user. -/
theorem C63_user_required (S : Server) (route : Route) (r : Http.Req) (tr : List Ev) (o : Outcome Http.Resp)
    (hroute : route ∈ [Route.authorize, .device]) (h : Exec (Http.serve S route r) tr o)
    (hx : tr ≠ [] ∨ ∃ a, o = .done a ∧ a.status ≠ 401) :
    r.basic = some (g!"hello", g!"world") := by
  have key : ∀ k, Exec (basicAuth r k) tr o → r.basic = some (g!"hello", g!"world") := by
    intro k hk
    rcases basicAuth_exec hk with ⟨h1, h2⟩ | ⟨hb, _⟩
    · rcases hx with hx | ⟨a, ha, hs⟩
      · exact absurd h1 hx
      · rcases h2 with rfl | rfl
        · cases ha; exact absurd rfl hs
        · cases ha
    · exact hb
  cases route with
  | authorize => exact key _ h
  | device => exact key _ h
  | _ => simp at hroute

/-- What the token service returns when it is not asked for an exchange. -/
theorem returned_facts {E : Env} {q : TokenReq} {c : Client} {tr : List Ev} {a : TokenResp} (hq : q.client = some c)
    (hx : ∀ g, q.grant ≠ some (.tokenExchange g)) (h : Exec (token E (some q)) tr (.done a)) {t : Token}
    (ht : Returns a t) :
    ∃ cl i, ⟨.clientsGet c.clientId, .ok (some cl)⟩ ∈ tr ∧ ⟨.tkCreate i t, .ok ()⟩ ∈ tr ∧ t.value ≠ [] ∧
      t.status = .active ∧ (∃ md, t.metadata = some md ∧ md.clientId = cl.clientId) ∧
      ((q.grantType ≠ g!"refresh_token" ∧ t.confirmation = q.tokenConfirmation) ∨
       ∃ v rt, q.grantType = g!"refresh_token" ∧ q.grant = some (.refreshToken v) ∧
         ⟨.tkGetVal q.issuer v, .ok (some rt)⟩ ∈ tr ∧ t.confirmation = rt.confirmation) := by
  rcases token_exec h with ⟨hr, _⟩ | ⟨q', c', cl, evs, h1, h2, h3, hs⟩
  · exact absurd (returnsToken_iff.2 ⟨t, ht⟩) (refused_no_token hr)
  · obtain rfl := Option.some.inj h1
    rw [hq] at h2
    obtain rfl := Option.some.inj h2
    have hfin : ∃ i sub sc aud cnf, t.value ≠ [] ∧ ⟨.tkCreate i t, .ok ()⟩ ∈ evs ∧
        Carries t i sub cl.clientId sc aud cnf ∧
        ((q.grantType ≠ g!"refresh_token" ∧ cnf = q.tokenConfirmation) ∨
          ∃ v rt, q.grantType = g!"refresh_token" ∧ q.grant = some (.refreshToken v) ∧
            ⟨.tkGetVal q.issuer v, .ok (some rt)⟩ ∈ tr ∧ cnf = rt.confirmation) := by
      cases hs with
      | code g sess ar mint hg hty h =>
        obtain ⟨f1, f2, f3⟩ := (codeTokens_facts h.tokens).2.2.2.2.2.2.2 t ht
        exact ⟨_, _, _, _, _, f1, by simp [h.trace, f2], f3, Or.inl ⟨by rw [hty]; decide, rfl⟩⟩
      | cc at_ hg hty h =>
        rw [h.answer] at ht
        rcases ht with ht | ht <;> simp at ht
        subst ht
        obtain ⟨f1, f2, f3, f4⟩ := mintAT_facts h.mint
        exact ⟨_, _, _, _, _, f1, f2, f4, Or.inl ⟨by rw [hty]; decide, rfl⟩⟩
      | device dc ref session dreq subject now mint hg hty h =>
        obtain ⟨f1, f2, f3⟩ := (deviceTokens_facts h.tokens).2.2.2.2.2 t ht
        exact ⟨_, _, _, _, _, f1, by simp [h.trace, f2], f3, Or.inl ⟨by rw [hty]; decide, rfl⟩⟩
      | refresh v rt md now mint hg hty h =>
        obtain ⟨f1, f2, f3⟩ := (refreshTokens_facts h.tokens).2.2.2.2.2.2.2 t ht
        exact ⟨_, _, _, _, _, f1, by simp [h.trace, f2], f3, Or.inr ⟨v, rt, hty, hg, by simp [h3, h.trace], rfl⟩⟩
      | exchange g st md now now2 jti v aud t' look hg _ h => exact absurd hg (hx g)
    obtain ⟨i, sub, sc, aud, cnf, f1, f2, f3, f4⟩ := hfin
    obtain ⟨⟨md, m1, _, _, m4, _⟩, rfl, f5⟩ := f3
    exact ⟨cl, i, by simp [h3], by simp [h3, f2], f1, f5, ⟨md, m1, m4⟩, f4⟩

/-- **C63** (whose tokens). Tokens are answered only to a request that comes from a registered
client; they were stored before and belong to the client registered under its identifier. -/
theorem C63_tokens_for_client (S : Server) (r : Http.Req) (tr : List Ev) (st : Nat) (b : TokenBody)
    (hnil : ∀ id, ⟨.clientsGet id, .ok none⟩ ∉ tr) (h : Exec (Http.serve S .token r) tr (.done ⟨st, .tokens b⟩)) :
    st = 200 ∧ r.method = g!"POST" ∧ ∃ c, FromClient S.P r tr c ∧
      ∀ v ∈ [b.accessToken, b.refreshToken], v = b.accessToken ∨ v ≠ [] →
        ∃ cl i t md, ⟨.clientsGet c.clientId, .ok (some cl)⟩ ∈ tr ∧ ⟨.tkCreate i t, .ok ()⟩ ∈ tr ∧ t.value = v ∧
          t.status = .active ∧ t.metadata = some md ∧ md.clientId = cl.clientId := by
  rcases clientAuth_exec h hnil with ⟨_, h2, _⟩ | ⟨c, t1, t2, rfl, _, hf, hk⟩
  · obtain ⟨e, he⟩ := h2 _ rfl
    simp at he
  obtain ⟨hm, d, u1, u2, cnf, res, u3, rfl, h4, h5, _⟩ := tokenHandler_tokens hk
  obtain ⟨at_, md, now, a1, a2, a3, a4, a5, a6, a7, a8, a9, a10⟩ := tokenAnswer_tokens h5
  refine ⟨a5, hm, c, hf.mono fun ev hev => List.mem_append_left _ hev, ?_⟩
  have fin : ∀ t, Returns res t → ∃ cl i t' md, ⟨.clientsGet c.clientId, .ok (some cl)⟩ ∈ t1 ++ (u1 ++ (u2 ++ u3)) ∧
      ⟨.tkCreate i t', .ok ()⟩ ∈ t1 ++ (u1 ++ (u2 ++ u3)) ∧ t'.value = t.value ∧
      t'.status = .active ∧ t'.metadata = some md ∧ md.clientId = cl.clientId := by
    intro t ht
    obtain ⟨cl, i, f1, f2, _, f3, ⟨md, f4, f5⟩, _⟩ := returned_facts (q := tokenMsg S r c cnf) rfl
      (fun g => grantOf_not_exchange) h4 ht
    exact ⟨cl, i, t, md, by simp [f1], by simp [f2], rfl, f3, f4, f5⟩
  intro v hv hne
  simp only [List.mem_cons, List.not_mem_nil, or_false] at hv
  by_cases hva : v = b.accessToken
  · subst hva; rw [a6]; exact fin at_ (Or.inl a2)
  · have hv : v = b.refreshToken := by tauto
    subst hv
    have hne : b.refreshToken ≠ [] := by tauto
    rw [a9] at hne ⊢
    cases hr : res.refreshToken with
    | none => simp [hr] at hne
    | some t => exact fin t (Or.inr hr)

/-- **C64** (the grants that mint tokens). Unless the grant is a refresh, a request with a
proof gets tokens of type DPoP, stored with the thumbprint of the key that signed the proof
for this very method and URL; a request without proof gets bearer tokens, stored without
confirmation, and only if the client does not insist on bound tokens. -/
theorem C64_binding (S : Server) (r : Http.Req) (tr : List Ev) (st : Nat) (b : TokenBody)
    (hnil : ∀ id, ⟨.clientsGet id, .ok none⟩ ∉ tr) (h : Exec (Http.serve S .token r) tr (.done ⟨st, .tokens b⟩))
    (hg : r.formValue g!"grant_type" ≠ g!"refresh_token") :
    ∃ c cnf, FromClient S.P r tr c ∧
      (∃ i t, ⟨.tkCreate i t, .ok ()⟩ ∈ tr ∧ t.value = b.accessToken ∧ t.confirmation = cnf) ∧
      (b.refreshToken ≠ [] → ∃ i t, ⟨.tkCreate i t, .ok ()⟩ ∈ tr ∧ t.value = b.refreshToken ∧ t.confirmation = cnf) ∧
      ((r.dpop = [] ∧ c.dpopBoundAccessTokens = false ∧ b.tokenType = g!"Bearer" ∧ cnf = none) ∨
       (r.dpop ≠ [] ∧ b.tokenType = g!"DPoP" ∧ ∃ p key claims thumb, S.E.parseProof r.dpop = some p ∧
         p.typ = some g!"dpop+jwt" ∧ p.jwk = some key ∧ p.claims key = some claims ∧ claims.htm = g!"POST" ∧
         S.E.urlString r.url = some claims.htu ∧ S.E.thumbprint key = some thumb ∧ cnf = some ⟨thumb⟩)) := by
  rcases clientAuth_exec h hnil with ⟨_, h2, _⟩ | ⟨c, t1, t2, rfl, _, hf, hk⟩
  · obtain ⟨e, he⟩ := h2 _ rfl
    simp at he
  obtain ⟨hm, d, u1, u2, cnf, res, u3, rfl, h4, h5, h6⟩ := tokenHandler_tokens hk
  obtain ⟨at_, md, now, a1, a2, a3, a4, a5, a6, a7, a8, a9, a10⟩ := tokenAnswer_tokens h5
  have fin : ∀ t, Returns res t → ∃ i t', ⟨.tkCreate i t', .ok ()⟩ ∈ t1 ++ (u1 ++ (u2 ++ u3)) ∧ t'.value = t.value ∧
      t'.confirmation = cnf := by
    intro t ht
    obtain ⟨cl, i, f1, f2, _, f3, ⟨md, f4, f5⟩, f6⟩ := returned_facts (q := tokenMsg S r c cnf) rfl
      (fun g => grantOf_not_exchange) h4 ht
    rcases f6 with ⟨_, f6⟩ | ⟨_, _, f6, _⟩
    · exact ⟨i, t, by simp [f2], rfl, f6⟩
    · exact absurd f6 hg
  refine ⟨c, cnf, hf.mono fun ev hev => List.mem_append_left _ hev, ?_, ?_, ?_⟩
  · rw [a6]; exact fin at_ (Or.inl a2)
  · intro hne
    rw [a9] at hne ⊢
    cases hr : res.refreshToken with
    | none => simp [hr] at hne
    | some t => exact fin t (Or.inr hr)
  · rcases h6 with ⟨d1, d2, d3, d4, _⟩ | ⟨d1, d2, jkt, d3, d4⟩
    · exact Or.inl ⟨d1, d2, by rw [a7, d4]; rfl, d3⟩
    · obtain ⟨p, key, claims, _, _, p1, p2, p3, p4, p5, p6, p7, _⟩ := C38_accepted_proof _ _ _ _ d4
      exact Or.inr ⟨d1, by rw [a7, d2]; rfl, p, key, claims, jkt, p1, p2, p3, p4, by rw [p6]; exact hm, p7, p5, d3⟩

/-- **C64** (what a refresh does). The tokens of a refresh keep the confirmation of the
refresh token, whatever proof is sent; the announced type follows the proof sent. -/
theorem C64_refresh_keeps (S : Server) (r : Http.Req) (tr : List Ev) (st : Nat) (b : TokenBody)
    (hnil : ∀ id, ⟨.clientsGet id, .ok none⟩ ∉ tr) (h : Exec (Http.serve S .token r) tr (.done ⟨st, .tokens b⟩))
    (hg : r.formValue g!"grant_type" = g!"refresh_token") :
    (b.tokenType = if r.dpop = [] then g!"Bearer" else g!"DPoP") ∧
    ∃ rt i t, ⟨.tkGetVal S.issuer (r.formValue g!"refresh_token"), .ok (some rt)⟩ ∈ tr ∧ ⟨.tkCreate i t, .ok ()⟩ ∈ tr ∧
      t.value = b.accessToken ∧ t.confirmation = rt.confirmation := by
  rcases clientAuth_exec h hnil with ⟨_, h2, _⟩ | ⟨c, t1, t2, rfl, _, hf, hk⟩
  · obtain ⟨e, he⟩ := h2 _ rfl
    simp at he
  obtain ⟨hm, d, u1, u2, cnf, res, u3, rfl, h4, h5, h6⟩ := tokenHandler_tokens hk
  obtain ⟨at_, md, now, a1, a2, a3, a4, a5, a6, a7, a8, a9, a10⟩ := tokenAnswer_tokens h5
  refine ⟨?_, ?_⟩
  · rcases h6 with ⟨d1, d2, d3, d4, _⟩ | ⟨d1, d2, jkt, d3, d4⟩
    · rw [a7, d4, if_pos d1]; rfl
    · rw [a7, d2, if_neg d1]; rfl
  · obtain ⟨cl, i, f1, f2, _, f3, ⟨md, f4, f5⟩, f6⟩ := returned_facts (q := tokenMsg S r c cnf) rfl
      (fun g => grantOf_not_exchange) h4 (Or.inl a2)
    rcases f6 with ⟨f6, _⟩ | ⟨v, rt, _, f7, f8, f9⟩
    · exact absurd hg f6
    · have hv : v = r.formValue g!"refresh_token" := by
        have h1 : grantOf r = some (.refreshToken v) := f7
        have h2 : grantOf r = some (.refreshToken (r.formValue g!"refresh_token")) := by
          unfold grantOf
          dsimp only
          rw [if_neg (by rw [hg]; decide), if_neg (by rw [hg]; decide), if_neg (by rw [hg]; decide)]
          exact if_pos hg
        rw [h1] at h2
        exact Grant.refreshToken.inj (Option.some.inj h2)
      subst hv
      exact ⟨rt, i, at_, List.mem_append_right _ (List.mem_append_right _ (List.mem_append_left _ f8)),
        by simp [f2], a6.symm, f9⟩

theorem not_nil_of_contract {tr : List Ev} (h : ∀ ev ∈ tr, StoreContract ev) :
    ∀ id, ⟨.clientsGet id, .ok none⟩ ∉ tr := fun id hm => by simpa [StoreContract] using h _ hm

/-- The hypotheses of the theorems above are met: a public client redeems a code without
proof, and with a proof. -/
example : ∃ tr b, Exec (Http.serve Demo.server .token Demo.httpCode) tr (.done ⟨200, .tokens b⟩) ∧
    (∀ id, ⟨.clientsGet id, .ok none⟩ ∉ tr) ∧ b.tokenType = g!"Bearer" ∧ b.refreshToken ≠ [] := by
  obtain ⟨tr, a, b, h1, h2, h3, h4⟩ := oracle_sel Demo.httpAnswers (Http.serve Demo.server .token Demo.httpCode)
    Http.Resp.tokens? _ (fun _ (b : TokenBody) => b.tokenType = g!"Bearer" ∧ b.refreshToken ≠ [])
    Demo.httpAnswers_contract (by decide +kernel)
  obtain rfl := Http.Resp.tokens?_eq h3
  exact ⟨tr, b, h1, not_nil_of_contract h2, h4⟩

example : ∃ tr b, Exec (Http.serve Demo.server .token { Demo.httpCode with dpop := g!"proof" }) tr (.done ⟨200, .tokens b⟩) ∧
    (∀ id, ⟨.clientsGet id, .ok none⟩ ∉ tr) ∧ b.tokenType = g!"DPoP" ∧ ∃ t ∈ stored tr, t.confirmation = some ⟨g!"k"⟩ := by
  obtain ⟨tr, a, b, h1, h2, h3, h4⟩ := oracle_sel Demo.httpAnswers
    (Http.serve Demo.server .token { Demo.httpCode with dpop := g!"proof" })
    Http.Resp.tokens? _ (fun tr (b : TokenBody) => b.tokenType = g!"DPoP" ∧ ∃ t ∈ stored tr, t.confirmation = some ⟨g!"k"⟩)
    Demo.httpAnswers_contract (by decide +kernel)
  obtain rfl := Http.Resp.tokens?_eq h3
  exact ⟨tr, b, h1, not_nil_of_contract h2, h4⟩

/-- A refresh of the public client `app`. -/
def demoHttpRefresh : Http.Req where
  method := g!"POST"
  query := Demo.form [(g!"client_id", g!"app")]
  post := Demo.form [(g!"grant_type", g!"refresh_token"), (g!"refresh_token", g!"rt")]
  target := { host := g!"as", path := g!"/token" }

/-- **C64_violated** (bound token, no proof). A refresh token bound to a key is accepted
without any proof of possession, and the answer announces the bound access token as a
bearer token. -/
theorem C64_violated_no_proof : ∃ (S : Server) (r : Http.Req) (tr : List Ev) (b : TokenBody) (rt t : Token) (i : Str),
    Exec (Http.serve S .token r) tr (.done ⟨200, .tokens b⟩) ∧ (∀ ev ∈ tr, StoreContract ev) ∧ r.dpop = [] ∧
    ⟨.tkGetVal S.issuer (r.formValue g!"refresh_token"), .ok (some rt)⟩ ∈ tr ∧ rt.confirmation ≠ none ∧
    ⟨.tkCreate i t, .ok ()⟩ ∈ tr ∧ t.value = b.accessToken ∧ t.confirmation ≠ none ∧ b.tokenType = g!"Bearer" := by
  obtain ⟨tr, a, b, h1, h2, h3, h4⟩ := oracle_sel Demo.httpAnswers (Http.serve Demo.server .token demoHttpRefresh)
    Http.Resp.tokens? _ (fun tr (_ : TokenBody) => ∀ t ∈ stored tr, t.confirmation ≠ none)
    Demo.httpAnswers_contract (by decide +kernel)
  obtain rfl := Http.Resp.tokens?_eq h3
  obtain ⟨k1, rt, i, t, k2, k3, k4, k5⟩ := C64_refresh_keeps _ _ _ _ _ (not_nil_of_contract h2) h1 (by decide)
  have hc : t.confirmation ≠ none := h4 t (List.mem_filterMap.2 ⟨_, k3, rfl⟩)
  exact ⟨_, _, tr, b, rt, t, i, h1, h2, rfl, k2, by rw [← k5]; exact hc, k3, k4, hc, k1⟩

/-- Answers with an unbound refresh token. -/
def unboundAnswers (c : Cmd) : c.Res :=
  match c with
  | .tkGetVal _ v =>
    .ok (some {
      tokenId := g!"id", value := v, status := .active, tokenType := .refreshToken
      metadata := some {
        issuer := Demo.issuer, subject := g!"alice", issuedAt := 50, notBefore := 51,
        expiresAt := 3650, clientId := g!"app", scope := g!"openid profile", audience := g!"api" } })
  | c => Demo.httpAnswers c

/-- **C64_violated** (unbound token, announced as bound). A refresh with a proof is answered
with the type DPoP although the access token is not bound to any key. -/
theorem C64_violated_unbound : ∃ (S : Server) (r : Http.Req) (tr : List Ev) (b : TokenBody),
    Exec (Http.serve S .token r) tr (.done ⟨200, .tokens b⟩) ∧ (∀ ev ∈ tr, StoreContract ev) ∧ r.dpop ≠ [] ∧
    b.tokenType = g!"DPoP" ∧ (∃ i t, ⟨.tkCreate i t, .ok ()⟩ ∈ tr ∧ t.value = b.accessToken) ∧
    ∀ i t, ⟨.tkCreate i t, .ok ()⟩ ∈ tr → t.confirmation = none := by
  obtain ⟨tr, a, b, h1, h2, h3, h4⟩ := oracle_sel unboundAnswers
    (Http.serve Demo.server .token { demoHttpRefresh with dpop := g!"proof" })
    Http.Resp.tokens? StoreContract (fun tr (_ : TokenBody) => ∀ t ∈ stored tr, t.confirmation = none)
    (by intro c; cases c <;> simp [StoreContract, unboundAnswers, Demo.httpAnswers, Demo.answers]) (by decide +kernel)
  obtain rfl := Http.Resp.tokens?_eq h3
  obtain ⟨k1, rt, i, t, k2, k3, k4, k5⟩ := C64_refresh_keeps _ _ _ _ _ (not_nil_of_contract h2) h1 (by decide)
  exact ⟨_, _, tr, b, h1, h2, by decide, k1, ⟨i, t, k3, k4⟩, fun i t hm => h4 t (List.mem_filterMap.2 ⟨_, hm, rfl⟩)⟩

/-! ### Introspection -/

theorem introspect_exec {E : Env} {iss tok : Str} {c : Client} {tr : List Ev} {a : IntrospectResp}
    (h : Exec (introspect E (some { issuer := iss, client := some c, token := tok })) tr (.done a)) (hg : a.goErr = false) :
    ∃ cl x, tr = [⟨.clientsGet c.clientId, cl⟩, ⟨.tkGetVal iss tok, x⟩] ∧
      ((∃ t, x = .ok t ∧ a.token = t) ∨ (x = .error .notFound ∧ ∃ t, a.token = some t ∧ t.status ≠ .active)) := by
  have hd : Done (fun tr a => a.goErr = false →
      ∃ cl x, tr = [⟨.clientsGet c.clientId, cl⟩, ⟨.tkGetVal iss tok, x⟩] ∧
      ((∃ t, x = .ok t ∧ a.token = t) ∨ (x = .error .notFound ∧ ∃ t, a.token = some t ∧ t.status ≠ .active)))
      (introspect E (some { issuer := iss, client := some c, token := tok })) [] := by
    unfold introspect
    dsimp only
    repeat' split
    all_goals try (simp [Done]; done)
    simp only [Prog.call, bind_op, bind_ret, pure_eq, Done]
    rintro ((_ | _) | cl)
    · simp [Done]
    · simp [Done]
    · simp only [Done]
      rintro ((_ | _) | t)
      · exact fun _ => ⟨_, _, rfl, Or.inr ⟨rfl, _, rfl, by simp⟩⟩
      · simp [Done]
      · exact fun _ => ⟨_, _, rfl, Or.inl ⟨t, rfl, rfl⟩⟩
  simpa using done_sound hd h hg

/-- **C32** (the endpoint). The answer reveals claims exactly when the store knows the
presented token as active and its validity covers the time read last; the claims are those
of the token. Otherwise nothing but `active: false` is said. -/
theorem C32_endpoint (S : Server) (r : Http.Req) (tr : List Ev) (st : Nat) (b : Option ActiveBody)
    (hnil : ∀ id, ⟨.clientsGet id, .ok none⟩ ∉ tr)
    (h : Exec (Http.serve S .introspect r) tr (.done ⟨st, .introspection b⟩)) :
    st = 200 ∧ (∃ c, FromClient S.P r tr c) ∧
    ∃ x, ⟨.tkGetVal S.issuer (r.formValue g!"token"), x⟩ ∈ tr ∧
      ((b.isSome = true ↔ ∃ t md now, x = .ok (some t) ∧ t.status = .active ∧ t.metadata = some md ∧
        tr.getLast? = some ⟨.now, now⟩ ∧ md.notBefore ≤ seconds now ∧ seconds now ≤ md.expiresAt)) ∧
      ∀ a, b = some a → ∃ t md, x = .ok (some t) ∧ t.metadata = some md ∧
        a = { scope := md.scope, clientId := md.clientId, exp := md.expiresAt, iat := md.issuedAt, nbf := md.notBefore,
              sub := md.subject, aud := md.audience, iss := md.issuer, jti := t.tokenId,
              tokenType := if t.confirmation = none then g!"Bearer" else g!"DPoP", cnf := t.confirmation,
              acr := md.acr, authTime := md.authTime } := by
  rcases clientAuth_exec h hnil with ⟨_, h2, _⟩ | ⟨c, t1, t2, rfl, _, hf, hk⟩
  · obtain ⟨e, he⟩ := h2 _ rfl
    simp at he
  unfold introspectHandler at hk
  dsimp only at hk
  rcases exec_bind hk with ⟨u1, u2, res, rfl, k1, k2⟩ | ⟨e, _⟩ | ⟨e, _⟩
  rotate_left
  · cases e
  · cases e
  cases hg : res.goErr with
  | true =>
    rw [hg] at k2
    obtain ⟨e, he⟩ := withError_done k2
    cases he
  | false =>
    obtain ⟨cl, x, rfl, hx⟩ := introspect_exec k1 hg
    have hm : ⟨.tkGetVal S.issuer (r.formValue g!"token"), x⟩ ∈ t1 ++ ([⟨.clientsGet c.clientId, cl⟩,
        ⟨.tkGetVal S.issuer (r.formValue g!"token"), x⟩] ++ u2) := by simp
    have hfr : ∃ c', FromClient S.P r (t1 ++ ([⟨.clientsGet c.clientId, cl⟩,
        ⟨.tkGetVal S.issuer (r.formValue g!"token"), x⟩] ++ u2)) c' :=
      ⟨c, hf.mono fun ev hev => List.mem_append_left _ hev⟩
    have hl : ∀ (now : Nat) (l : List Ev), (t1 ++ (l ++ [(⟨.now, now⟩ : Ev)])).getLast? = some (⟨.now, now⟩ : Ev) := by
      intro now l; rw [← List.append_assoc]; simp
    rw [hg] at k2
    simp only [Bool.false_eq_true, if_false] at k2
    cases ht : res.token with
    | none => rw [ht] at k2; cases k2
    | some t =>
      rw [ht] at k2 hx
      dsimp only at k2
      by_cases hs : t.status = .active
      · obtain rfl : x = .ok (some t) := by
          rcases hx with ⟨t', rfl, e⟩ | ⟨_, t', e, hn⟩
          · rw [e]
          · cases e; exact absurd hs hn
        rw [if_pos hs] at k2
        cases hmd : t.metadata with
        | none =>
          simp only [TokenGen.isUsable, hmd, bind_ret, pure_eq, Bool.false_eq_true, if_false] at k2
          cases k2
          refine ⟨rfl, hfr, _, hm, ?_, by simp⟩
          constructor
          · intro h; cases h
          · rintro ⟨t', md, now, e, _, e', _⟩
            cases e; rw [hmd] at e'; cases e'
        | some md =>
          simp only [TokenGen.isUsable, hmd, Prog.call, bind_op, bind_ret, pure_eq] at k2
          cases k2 with
          | step _ _ now u3 _ k3 =>
            by_cases h1 : md.expiresAt < Device.unix now
            · simp only [h1, if_true, bind_ret, Bool.false_eq_true, if_false] at k3
              cases k3
              refine ⟨rfl, hfr, _, hm, ?_, by simp⟩
              constructor
              · intro h; cases h
              · rintro ⟨t', md', now', e, _, e', e3, _, e4⟩
                cases e; rw [hmd] at e'; cases e'
                rw [hl] at e3; cases e3
                simp only [Device.unix, seconds] at *; omega
            · by_cases h2 : md.notBefore > Device.unix now
              · simp only [h1, h2, if_true, bind_ret, Bool.false_eq_true, if_false] at k3
                cases k3
                refine ⟨rfl, hfr, _, hm, ?_, by simp⟩
                constructor
                · intro h; cases h
                · rintro ⟨t', md', now', e, _, e', e3, e4, _⟩
                  cases e; rw [hmd] at e'; cases e'
                  rw [hl] at e3; cases e3
                  simp only [Device.unix, seconds] at *; omega
              · simp only [h1, h2, if_true, bind_ret, if_false] at k3
                cases k3
                refine ⟨rfl, hfr, _, hm, ?_, ?_⟩
                · refine ⟨fun _ => ⟨t, md, now, rfl, hs, hmd, hl now _, ?_, ?_⟩, fun _ => rfl⟩
                  · simp only [Device.unix, seconds] at *; omega
                  · simp only [Device.unix, seconds] at *; omega
                · intro a ha
                  cases ha
                  refine ⟨t, md, rfl, hmd, ?_⟩
                  unfold activeBody
                  cases t.confirmation <;> rfl
      · rw [if_neg hs] at k2
        cases k2
        refine ⟨rfl, hfr, _, hm, ?_, by simp⟩
        constructor
        · intro h; cases h
        · rintro ⟨t', md, now, e, e2, _⟩
          rcases hx with ⟨t'', rfl, e3⟩ | ⟨e3, _⟩
          · cases e; cases e3; exact absurd e2 hs
          · rw [e] at e3; cases e3

/-- An introspection request of the public client `app`. -/
def demoIntrospect : Http.Req where
  method := g!"POST"
  query := Demo.form [(g!"client_id", g!"app")]
  post := Demo.form [(g!"token", g!"at")]

example : ∃ tr b, Exec (Http.serve Demo.server .introspect demoIntrospect) tr (.done ⟨200, .introspection (some b)⟩) ∧
    (∀ id, ⟨.clientsGet id, .ok none⟩ ∉ tr) ∧ b.sub = g!"alice" := by
  obtain ⟨tr, a, b, h1, h2, h3, h4⟩ := oracle_sel Demo.httpAnswers (Http.serve Demo.server .introspect demoIntrospect)
    (fun a => match a.body with | .introspection b => b | _ => none) _ (fun _ (b : ActiveBody) => b.sub = g!"alice")
    Demo.httpAnswers_contract (by decide +kernel)
  obtain ⟨st, body⟩ := a
  cases body with
  | introspection b' =>
    dsimp only at h3
    subst h3
    obtain ⟨rfl, _⟩ := C32_endpoint _ _ _ _ _ (not_nil_of_contract h2) h1
    exact ⟨tr, b, h1, not_nil_of_contract h2, h4⟩
  | _ => cases h3

/-! ### Crashes -/

/-- Answers with a code session whose scope lacks `openid`. -/
def noOpenidAnswers (c : Cmd) : c.Res :=
  match c with
  | .csGet _ _ =>
    .ok (some { issuer := Demo.issuer, subject := g!"alice", request := some { Demo.request with scope := g!"profile" } })
  | c => Demo.httpAnswers c

/-- **C65_violated** (/token). Redeeming a code whose scope lacks `openid` crashes the
handler: the service reports success without tokens. -/
theorem C65_violated_token : ∃ (S : Server) (r : Http.Req) (tr : List Ev),
    Exec (Http.serve S .token r) tr .panicked ∧ ∀ ev ∈ tr, StoreContract ev :=
  ⟨_, _, oracle_crash noOpenidAnswers (Http.serve Demo.server .token Demo.httpCode) StoreContract
    (by intro c; cases c <;> simp [StoreContract, noOpenidAnswers, Demo.httpAnswers, Demo.answers]) (by decide +kernel)⟩

/-- **C65_violated** (/token/revoke). Whenever a public client revokes a token that the store
does not find, the handler crashes: the service reports an error without OAuth error. -/
theorem C65_violated_revoke (S : Server) (r : Http.Req) (id : Str) (c : Client)
    (hid : r.query g!"client_id" = some id) (hne : id ≠ []) (hpub : c.clientType = .pub)
    (hiss : S.issuer ≠ []) (hp : S.E.parseRequestURI S.issuer = true) (htok : r.formValue g!"token" ≠ []) :
    ∃ tr, (∀ ev ∈ tr, StoreContract ev) ∧ ⟨.tkGetVal S.issuer (r.formValue g!"token"), .error .notFound⟩ ∈ tr ∧
      Exec (Http.serve S .revoke r) tr .panicked := by
  obtain rfl : r.get g!"client_id" = id := by simp [Http.Req.get, hid]
  refine ⟨[⟨.clientsGet (r.get g!"client_id"), .ok (some c)⟩, ⟨.clientsGet c.clientId, .ok (some c)⟩,
    ⟨.tkGetVal S.issuer (r.formValue g!"token"), .error .notFound⟩], by simp [StoreContract], by simp, ?_⟩
  let ans : (c : Cmd) → c.Res := fun
    | .clientsGet _ => .ok (some c)
    | .tkGetVal _ _ => .error .notFound
    | c => Demo.answers c
  have h := oracle_exec ans (Http.serve S .revoke r)
  simpa [Http.serve, clientAuth, hne, Prog.call, bind_op, bind_ret, pure_eq, oracle, ans, hpub, revokeHandler, revoke, hiss,
    hp, htok, withError] using h

example : ∃ (S : Server) (r : Http.Req), r.query g!"client_id" = some g!"app" ∧ S.issuer ≠ [] ∧
    S.E.parseRequestURI S.issuer = true ∧ r.formValue g!"token" ≠ [] :=
  ⟨Demo.server, demoIntrospect, by decide, by decide, by decide, by decide⟩

/-- Introspection has an OAuth error for every error. -/
theorem introspect_error {E : Env} {q : Option TokenRefReq} {tr : List Ev} {a : IntrospectResp}
    (h : Exec (introspect E q) tr (.done a)) (hg : a.goErr = true) : a.error ≠ none := by
  have hd : Done (fun _ a => a.goErr = true → a.error ≠ none) (introspect E q) [] := by
    unfold introspect
    repeat' split
    all_goals try (simp [Done]; done)
    simp only [Prog.call, bind_op, bind_ret, pure_eq, Done]
    rintro ((_ | _) | cl)
    · simp [Done]
    · simp [Done]
    · simp only [Done]
      rintro ((_ | _) | t) <;> simp [Done]
  exact done_sound hd h hg

/-- Revocation has an OAuth error for every error, unless the token store failed. -/
theorem revoke_error {E : Env} {q : Option TokenRefReq} {tr : List Ev} {a : RevokeResp}
    (h : Exec (revoke E q) tr (.done a)) (hg : a.goErr = true)
    (h1 : ∀ i v e, ⟨.tkGetVal i v, .error e⟩ ∉ tr) (h2 : ∀ i v e, ⟨.tkRevoke i v, .error e⟩ ∉ tr) : a.error ≠ none := by
  have hd : Done (fun tr a => (∀ i v e, ⟨.tkGetVal i v, .error e⟩ ∉ tr) → (∀ i v e, ⟨.tkRevoke i v, .error e⟩ ∉ tr) →
      a.goErr = true → a.error ≠ none) (revoke E q) [] := by
    unfold revoke
    repeat' split
    all_goals try (simp [Done]; done)
    simp only [Prog.call, bind_op, bind_ret, pure_eq, Done]
    rintro ((_ | _) | cl)
    · simp [Done]
    · simp [Done]
    · simp only [Done]
      rintro (e | (_ | t))
      · intro h; exact absurd (List.mem_append_right _ (List.mem_singleton.2 rfl)) (h _ _ e)
      · trivial
      · simp only [Done]
        rintro (e | _)
        · intro _ h; exact absurd (List.mem_append_right _ (List.mem_singleton.2 rfl)) (h _ _ e)
        · simp [Done]
  exact done_sound hd h h1 h2 hg

theorem verify_done_ok {E : Env} {q : DPoP.VerifyReq} {tr : List Ev} : ¬ Exec (DPoP.verify E q) tr .panicked :=
  fun h => noPanic_sound (W := fun _ => True) (noPanic_dpop E q) (fun _ _ => trivial) h

/-- **C65** (what holds). No request crashes an endpoint while the store honours its
contract, the attestations with a confirmation carry a key, the redeemed codes have `openid`
in their scope, and no token lookup or revocation fails while a token is being revoked. -/
theorem C65_no_crash_partial (S : Server) (route : Route) (r : Http.Req) (tr : List Ev)
    (hw : ∀ ev ∈ tr, StoreContract ev) (hcnf : ∀ p c, S.P.attClaims p = some c → c.cnf ≠ some none)
    (hopenid : ∀ i code s ar, ⟨.csGet i code, .ok (some s)⟩ ∈ tr → s.request = some ar → HasWord g!"openid" ar.scope)
    (hrev : route = .revoke → (∀ i v e, ⟨.tkGetVal i v, .error e⟩ ∉ tr) ∧ ∀ i v e, ⟨.tkRevoke i v, .error e⟩ ∉ tr) :
    ¬ Exec (Http.serve S route r) tr .panicked := by
  intro h
  have hnil := not_nil_of_contract hw
  -- behind client authentication
  have hca : ∀ k, Exec (clientAuth S r k) tr .panicked →
      ∃ c t1 t2, tr = t1 ++ t2 ∧ Exec (k (some c)) t2 .panicked := by
    intro k hk
    rcases clientAuth_exec hk hnil with ⟨_, _, h3⟩ | ⟨c, t1, t2, e, _, _, h2⟩
    · obtain ⟨q, h3 | h3⟩ := h3 rfl
      · exact absurd h3 (C60_private_key_jwt _ _ _ hnil)
      · exact absurd h3 (C60_attestation_partial _ _ _ hcnf hnil)
    · exact ⟨c, t1, t2, e, h2⟩
  have herr : ∀ {n c t}, ¬ Exec (err n c) t .panicked := by
    intro n c t h
    cases h
  have hret : ∀ {x : Http.Resp} {t}, ¬ Exec (Prog.ret x) t .panicked := by
    intro n c h
    cases h
  have hcall : ∀ {c : Cmd} {t}, ¬ Exec (Prog.call c) t .panicked := by
    intro c t h
    cases h with
    | step _ _ _ _ _ h => cases h
  have hcall2 : ∀ {c : Cmd} {t x}, Exec (Prog.call c) t (.done x) → t = [⟨c, x⟩] := by
    intro c t x h
    cases h with
    | step _ _ _ _ _ h => cases h; rfl
  cases route with
  | par =>
    obtain ⟨c, t1, t2, rfl, hk⟩ := hca _ h
    have hw2 : ∀ ev ∈ t2, StoreContract ev := fun ev hev => hw ev (by simp [hev])
    unfold parHandler at hk
    split at hk
    · exact hret hk
    · dsimp only at hk
      rcases panic_bind hk with hk | ⟨u1, u2, a, rfl, _, hk⟩
      · exact verify_done_ok hk
      · cases a with
        | none => exact herr hk
        | some jkt =>
          dsimp only at hk
          split at hk
          · exact herr hk
          · rcases panic_bind hk with hk | ⟨u3, u4, a, rfl, h1, hk⟩
            · exact noPanic_sound (noPanic_register (W := StoreContract) (fun _ h => h) S.E _)
                (fun ev hev => hw2 ev (by simp [hev])) hk
            · split at hk
              · rename_i hg
                have := ((C54_errors_carry_nothing S.E _).2.1 _ _ h1).1.2 hg
                rw [withError_panic hk] at this
                cases this
              · exact hret hk
  | authorize =>
    rcases basicAuth_exec h with ⟨_, h1⟩ | ⟨_, hk⟩
    · rcases h1 with h1 | h1 <;> cases h1
    · unfold authorizeHandler at hk
      split at hk
      · exact herr hk
      split at hk
      · exact herr hk
      rcases panic_bind hk with hk | ⟨u1, u2, x, rfl, h0, hk'⟩
      · exact hcall hk
      obtain rfl := hcall2 h0
      clear hk
      have hk := hk'
      clear hk'
      rcases x with e | (_ | client)
      · exact herr hk
      · exact hnil _ (List.mem_cons_self ..)
      dsimp only at hk
      split at hk
      · exact herr hk
      split at hk
      · exact herr hk
      rcases panic_bind hk with hk | ⟨u3, u4, a, rfl, h1, hk⟩
      · exact noPanic_sound (noPanic_authorize (W := StoreContract) (fun _ h => h) S.E _)
          (fun ev hev => hw ev (by simp [hev])) hk
      split at hk
      · rename_i hg
        have := ((C54_errors_carry_nothing S.E _).1 _ _ h1).1.2 hg
        rw [withError_panic hk] at this
        cases this
      unfold deliver at hk
      split at hk
      · exact herr hk
      split at hk
      · exact hret hk
      rcases panic_bind hk with hk | ⟨u5, u6, a, rfl, _, hk⟩
      · refine noPanic_sound (W := fun _ => True) ?_ (fun _ _ => trivial) hk
        unfold Sign.jarmEncode
        repeat' first
          | exact True.intro
          | split
        intro now _
        exact True.intro
      · split at hk
        · exact herr hk
        · exact hret hk
  | token =>
    obtain ⟨c, t1, t2, rfl, hk⟩ := hca _ h
    have hw2 : ∀ ev ∈ t2, StoreContract ev := fun ev hev => hw ev (by simp [hev])
    have htok : ∀ {d cnf l1 l2}, t2 = l1 ++ l2 →
        ¬ Exec (token S.E (some (tokenMsg S r c cnf)) >>= Http.tokenAnswer d) l2 .panicked := by
      rintro d cnf l1 l2 rfl hk
      rcases panic_bind hk with hk | ⟨u3, u4, res, rfl, h1, hk⟩
      · refine noPanic_sound (noPanic_token (W := StoreContract) (fun _ h => h) S.E _ (Or.inl ?_))
          (fun ev hev => hw2 ev (by simp [hev])) hk
        intro q g hq hg
        cases hq
        exact absurd hg grantOf_not_exchange
      unfold Http.tokenAnswer at hk
      split at hk
      · rename_i hg
        have := C54_token_error_reported_partial S.E _ _ _ h1 hg (by
          intro q g hq hg
          cases hq
          exact absurd hg grantOf_not_exchange)
        rw [withError_panic hk] at this
        cases this
      · rename_i hg
        have hat : res.accessToken.isSome = true := by
          rcases token_exec h1 with ⟨hr, _⟩ | ⟨q, c', cl, evs, e1, e2, rfl, hs⟩
          · exact absurd hr.1 hg
          cases e1
          cases hs with
          | code g sess ar mint hg hty hc =>
            refine (codeTokens_facts hc.tokens).2.2.2.1.2 (hopenid S.issuer g.code sess ar ?_ hc.request)
            simp [hc.trace, tokenMsg]
          | cc at_ hg hty hc => rw [hc.answer]; rfl
          | device dc ref session dreq subject now mint hg hty hc => exact (deviceTokens_facts hc.tokens).2.2.2.1
          | refresh v rt md now mint hg hty hc =>
            obtain ⟨at_, hat, _⟩ := (refreshTokens_facts hc.tokens).2.2.2.1
            rw [hat]; rfl
          | exchange g st md now now2 jti v aud t' look hg _ hc => exact absurd hg grantOf_not_exchange
        obtain ⟨at_, hat⟩ := Option.isSome_iff_exists.1 hat
        obtain ⟨cl, i, _, _, _, _, ⟨md, hmd, _⟩, _⟩ := returned_facts (q := tokenMsg S r c cnf) rfl
          (fun g => grantOf_not_exchange) h1 (Or.inl hat)
        rw [hat] at hk
        dsimp only at hk
        rw [hmd] at hk
        rcases panic_bind hk with hk | ⟨u3, u4, a, rfl, _, hk⟩
        · exact hcall hk
        · exact hret hk
    unfold tokenHandler at hk
    split at hk
    · exact herr hk
    dsimp only at hk
    split at hk
    · exact herr hk
    split at hk
    · exact htok (l1 := []) rfl hk
    rcases panic_bind hk with hk | ⟨u1, u2, a, rfl, _, hk⟩
    · exact verify_done_ok hk
    cases a with
    | none => exact herr hk
    | some jkt => exact htok rfl hk
  | introspect =>
    obtain ⟨c, t1, t2, rfl, hk⟩ := hca _ h
    unfold introspectHandler at hk
    dsimp only at hk
    rcases panic_bind hk with hk | ⟨u1, u2, a, rfl, h1, hk⟩
    · exact noPanic_sound (W := fun _ => True) (noPanic_introspect S.E _) (fun _ _ => trivial) hk
    split at hk
    · rename_i hg
      exact introspect_error h1 hg (withError_panic hk)
    · rename_i hg
      obtain ⟨cl, x, e0, hx⟩ := introspect_exec h1 (by simpa using hg)
      split at hk
      · rename_i hn
        rcases hx with ⟨t, rfl, e⟩ | ⟨_, t, e, _⟩
        · rw [hn] at e; subst e
          have := hw ⟨.tkGetVal S.issuer (r.formValue g!"token"), .ok none⟩ (by simp [e0])
          simp [StoreContract] at this
        · rw [hn] at e; cases e
      · rename_i t ht
        split at hk
        · cases hmd : t.metadata with
          | none =>
            simp only [TokenGen.isUsable, hmd, bind_ret, pure_eq, Bool.false_eq_true, if_false] at hk
            exact hret hk
          | some md =>
            rcases panic_bind hk with hk | ⟨u3, u4, a, rfl, _, hk⟩
            · refine noPanic_sound (W := fun _ => True) ?_ (fun _ _ => trivial) hk
              simp only [TokenGen.isUsable, hmd, Prog.call, bind_op, bind_ret, pure_eq]
              intro now _
              dsimp only
              split
              · exact True.intro
              · split <;> exact True.intro
            · rw [hmd] at hk
              split at hk <;> exact hret hk
        · exact hret hk
  | revoke =>
    obtain ⟨c, t1, t2, rfl, hk⟩ := hca _ h
    obtain ⟨hr1, hr2⟩ := hrev rfl
    unfold revokeHandler at hk
    dsimp only at hk
    rcases panic_bind hk with hk | ⟨u1, u2, a, rfl, h1, hk⟩
    · exact noPanic_sound (W := StoreContract) (noPanic_revoke (fun _ h => h) S.E _)
        (fun ev hev => hw ev (by simp [hev])) hk
    split at hk
    · rename_i hg
      exact revoke_error h1 hg (fun i v e hm => hr1 i v e (by simp [hm])) (fun i v e hm => hr2 i v e (by simp [hm]))
        (withError_panic hk)
    · exact hret hk
  | deviceAuthorize =>
    obtain ⟨c, t1, t2, rfl, hk⟩ := hca _ h
    unfold deviceAuthzHandler at hk
    split at hk
    · exact herr hk
    rcases panic_bind hk with hk | ⟨u1, u2, a, rfl, h1, hk⟩
    · exact noPanic_sound (W := fun _ => True) (noPanic_deviceAuthorize _) (fun _ _ => trivial) hk
    split at hk
    · rename_i hg
      have := ((C54_errors_carry_nothing S.E _).2.2.1 _ _ h1).1.2 hg
      rw [withError_panic hk] at this
      cases this
    · exact hret hk
  | device =>
    rcases basicAuth_exec h with ⟨_, h1⟩ | ⟨_, hk⟩
    · rcases h1 with h1 | h1 <;> cases h1
    unfold deviceHandler at hk
    split at hk
    · exact herr hk
    split at hk
    · exact hret hk
    split at hk
    · rcases panic_bind hk with hk | ⟨u1, u2, a, rfl, h1, hk⟩
      · exact noPanic_sound (W := fun _ => True) (noPanic_deviceValidate _) (fun _ _ => trivial) hk
      split at hk
      · rename_i hg
        have := ((C54_errors_carry_nothing S.E _).2.2.2.1 _ _ h1).2 hg
        rw [withError_panic hk] at this
        cases this
      · exact hret hk
    · exact herr hk

/-- The redemption of the examples meets the hypotheses on codes. -/
example : ∃ tr a, Exec (Http.serve Demo.server .token Demo.httpCode) tr (.done a) ∧
    (∀ ev ∈ tr, StoreContract ev ∧ ∀ i code s ar, ev = ⟨.csGet i code, .ok (some s)⟩ → s.request = some ar →
      HasWord g!"openid" ar.scope) ∧ a.status = 200 := by
  have hs : HasWord g!"openid" Demo.request.scope := (contains_fields _ _).1 (by decide)
  refine oracle_run Demo.httpAnswers _ (fun ev => StoreContract ev ∧ ∀ i code s ar, ev = ⟨.csGet i code, .ok (some s)⟩ →
    s.request = some ar → HasWord g!"openid" ar.scope) (fun _ (a : Http.Resp) => a.status = 200) ?_ (by decide +kernel)
  intro c
  refine ⟨Demo.httpAnswers_contract c, ?_⟩
  rintro i code s ar h1 h2
  cases h1
  cases h2
  exact hs

/-! ### The device flow -/

/-- **C66_violated.** A client starts a device authorization in the name of another one: it
authenticates as `app` in the query and names `other` in the body. -/
theorem C66_violated : ∃ (S : Server) (r : Http.Req) (tr : List Ev) (a : Http.Resp) (i u : Str) (n : Nat) (s : DeviceSession)
    (cl : Client), Exec (Http.serve S .deviceAuthorize r) tr (.done a) ∧ (∀ ev ∈ tr, StoreContract ev) ∧ a.status = 200 ∧
      (∀ c, FromClient S.P r tr c → c.clientId = g!"app") ∧
      ⟨.dsReg i u s, .ok n⟩ ∈ tr ∧ s.client = some cl ∧ cl.clientId = g!"other" := by
  let r : Http.Req := {
    method := g!"POST", query := Demo.form [(g!"client_id", g!"app")], post := Demo.form [(g!"client_id", g!"other")] }
  obtain ⟨tr, a, h1, h2, h3, h4, h5⟩ := oracle_run Demo.httpAnswers (Http.serve Demo.server .deviceAuthorize r)
    (fun ev => StoreContract ev ∧ ∀ id c, ev = ⟨.clientsGet id, .ok (some c)⟩ → c.clientId = id)
    (fun tr (a : Http.Resp) => a.status = 200 ∧ (deviceSessions tr).length = 1 ∧
      ∀ s ∈ deviceSessions tr, s.client.map (·.clientId) = some g!"other")
    (by
      intro c
      refine ⟨Demo.httpAnswers_contract c, ?_⟩
      rintro id cl h
      cases h
      rfl) (by decide +kernel)
  obtain ⟨s, hs⟩ := List.exists_mem_of_length_pos (l := deviceSessions tr) (by omega)
  obtain ⟨i, u, n, hm⟩ := mem_deviceSessions hs
  obtain ⟨cl, hcl, hid⟩ := Option.map_eq_some_iff.1 (h5 s hs)
  refine ⟨Demo.server, r, tr, a, i, u, n, s, cl, h1, fun ev hev => (h2 ev hev).1, h3, ?_, hm, hcl, hid⟩
  intro c hc
  cases hc with
  | named id hq hne hreg hpub =>
    have : id = g!"app" := by
      have hq' : r.query g!"client_id" = some g!"app" := by decide
      rw [hq] at hq'
      exact Option.some.inj hq'
    rw [(h2 _ hreg).2 id c rfl, this]
  | key a t cl now keys k hty => exact absurd hty (by decide)
  | attested att pop t1 t2 c1 c2 attester keys k key hty => exact absurd hty (by decide)

/-- **C66** (what holds). If the body does not name a client, the device authorization of a
public client is recorded for the client named in the query. Missing for the full claim:
the handler reads the client from the form instead of the authenticated one. -/
theorem C66_device_client_partial (S : Server) (r : Http.Req) (tr : List Ev) (o : Outcome Http.Resp)
    (hnil : ∀ id, ⟨.clientsGet id, .ok none⟩ ∉ tr) (hbody : r.post g!"client_id" = none)
    (h : Exec (Http.serve S .deviceAuthorize r) tr o) (i u : Str) (s : DeviceSession)
    (x : (Cmd.dsReg i u s).Res) (hs : ⟨.dsReg i u s, x⟩ ∈ tr) :
    ∃ id q, r.query g!"client_id" = some id ∧ i = S.issuer ∧ s.request = some q ∧ q.clientId = id ∧
      ∃ c, FromClient S.P r tr c := by
  rcases clientAuth_exec h hnil with ⟨h1, _⟩ | ⟨c, t1, t2, rfl, hr1, hf, hk⟩
  · rcases h1 _ hs with h | ⟨_, h⟩ <;> cases h
  have hs2 : ⟨.dsReg i u s, x⟩ ∈ t2 := by
    rcases List.mem_append.1 hs with hs | hs
    · rcases hr1 _ hs with h | ⟨_, h⟩ <;> cases h
    · exact hs
  have hfr : ∃ c, FromClient S.P r (t1 ++ t2) c := ⟨c, hf.mono fun ev hev => List.mem_append_left _ hev⟩
  unfold deviceAuthzHandler at hk
  split at hk
  · obtain ⟨rfl, _⟩ := exec_err hk
    cases hs2
  have hd : ∀ {t} {o : Outcome DeviceAuthzResp}, Exec (Device.authorize (some {
      issuer := S.issuer, clientId := r.formValue g!"client_id", scope := optional (r.formValue g!"scope"),
      audience := optional (r.formValue g!"audience") })) t o → ⟨.dsReg i u s, x⟩ ∈ t →
      ∃ id q, r.query g!"client_id" = some id ∧ i = S.issuer ∧ s.request = some q ∧ q.clientId = id ∧
        ∃ c, FromClient S.P r (t1 ++ t2) c := by
    intro t o he hm
    obtain ⟨_, _, _, hc⟩ := calls_mem (deviceAuthorize_calls _) he hm
    obtain ⟨q, cl, dc, e1, e2, e3⟩ := hc i u s rfl
    cases e1
    subst e3
    have hne : r.formValue g!"client_id" ≠ [] := by
      intro h0
      rw [h0] at he
      unfold Device.authorize at he
      dsimp only at he
      split at he
      · cases he <;> cases hm
      · simp only [if_true] at he
        cases he <;> cases hm
    have hfv : r.formValue g!"client_id" = (r.query g!"client_id").getD [] := by
      simp [Http.Req.formValue, hbody, Http.Req.get]
    cases hq : r.query g!"client_id" with
    | none => rw [hfv, hq] at hne; exact absurd rfl hne
    | some id => exact ⟨id, _, rfl, e2, rfl, by simp [Http.Req.formValue, hbody, Http.Req.get, hq], hfr⟩
  rcases exec_bind hk with ⟨u1, u2, res, rfl, k1, k2⟩ | ⟨_, k1⟩ | ⟨_, k1⟩
  · rcases List.mem_append.1 hs2 with hs2 | hs2
    · exact hd k1 hs2
    · split at k2
      · unfold withError at k2
        split at k2 <;> cases k2 <;> cases hs2
      · cases k2 <;> cases hs2
  · exact hd k1 hs2
  · exact hd k1 hs2

example : ∃ (r : Http.Req) (tr : List Ev) (a : Http.Resp) (i u : Str) (n : Nat) (s : DeviceSession),
    r.post g!"client_id" = none ∧ Exec (Http.serve Demo.server .deviceAuthorize r) tr (.done a) ∧
    (∀ id, ⟨.clientsGet id, .ok none⟩ ∉ tr) ∧ ⟨.dsReg i u s, .ok n⟩ ∈ tr := by
  let r : Http.Req := { method := g!"POST", query := Demo.form [(g!"client_id", g!"app")] }
  obtain ⟨tr, a, h1, h2, h3⟩ := oracle_run Demo.httpAnswers (Http.serve Demo.server .deviceAuthorize r)
    StoreContract (fun tr _ => (deviceSessions tr).length = 1) Demo.httpAnswers_contract (by decide +kernel)
  obtain ⟨s, hs⟩ := List.exists_mem_of_length_pos (l := deviceSessions tr) (by omega)
  obtain ⟨i, u, n, hm⟩ := mem_deviceSessions hs
  exact ⟨r, tr, a, i, u, n, s, rfl, h1, not_nil_of_contract h2, hm⟩

/-! ### The authorization endpoint -/

theorem decodeRequest_some {S : Server} {client : Client} {raw : Str} {ar : AuthzRequest}
    (h : decodeRequest S client raw = some ar) :
    ∃ t keys k, S.requestParse raw = some t ∧ S.P.jwks client.jwks = some keys ∧ k ∈ keys ∧ k.use ≠ g!"enc" ∧
      t.verifies k = true ∧ S.requestDec t.payload = some ar := by
  unfold decodeRequest at h
  split at h
  · cases h
  · split at h
    · rename_i ar' hd
      cases h
      unfold Jose.defaultClaims at hd
      split at hd
      · cases hd
      · rename_i t ht
        cases hj : S.P.jwks client.jwks with
        | none => rw [hj] at hd; cases hd
        | some keys =>
          rw [hj] at hd
          dsimp only [Option.map] at hd
          rw [Jose.ofOption_ok, Jose.firstKey_claims] at hd
          obtain ⟨⟨k, hk, hu, hv⟩, hdec⟩ := hd
          refine ⟨t, keys, k, ht, rfl, ?_, hu, hv, hdec⟩
          split at hk
          · exact (List.mem_filter.1 hk).1
          · exact hk
    · cases h

/-- An answered authorization. -/
theorem authorization_facts {S : Server} {r : Http.Req} {tr : List Ev} {st : Nat} {u : Str} {d : Delivery} {content : Str}
    (h : Exec (Http.serve S .authorize r) tr (.done ⟨st, .authorization u d content⟩)) :
    r.method = g!"GET" ∧ r.basic = some (g!"hello", g!"world") ∧ ∃ client ar sub res n sess a eff now,
      ⟨.clientsGet (r.get g!"client_id"), .ok (some client)⟩ ∈ tr ∧
      decodeRequest S client (r.get g!"request") = some ar ∧
      (if client.subjectType = g!"pairwise" then Lib.pairwise S.pairHash S.pairSalt client.sectorIdentifier g!"hello"
        else some g!"hello") = some sub ∧
      ⟨.csReg S.issuer res.code sess, .ok n⟩ ∈ tr ∧ sess.subject = sub ∧ sess.request = some eff ∧ Effective a eff ∧
      ActedOn ⟨S.issuer, some client, sub, some ar⟩ tr a ∧ ⟨.now, now⟩ ∈ tr ∧
      res = ({ code := res.code, state := a.state, redirectUri := a.redirectUri, clientId := a.clientId, expiresIn := n,
               issuer := S.issuer } : AuthorizeResp) ∧
      st = 302 ∧ u = a.redirectUri ∧ d = .queryJWT ∧
      S.jarmSer { state := a.state, iss := S.issuer, aud := a.clientId, code := res.code,
                  exp := Device.unix (now + n * 1000000000) } = some content ∧
      S.E.parseRequestURI u = true ∧
      ∃ cl reg, ⟨.clientsGet a.clientId, .ok (some cl)⟩ ∈ tr ∧ reg ∈ cl.redirectUris ∧ SameFold u reg := by
  rcases basicAuth_exec h with ⟨_, h1⟩ | ⟨hb, hk⟩
  · rcases h1 with h1 | h1 <;> cases h1
  unfold authorizeHandler at hk
  split at hk
  · cases not_err_tokens hk
  rename_i hm
  refine ⟨by simpa using hm, hb, ?_⟩
  split at hk
  · cases not_err_tokens hk
  rcases exec_bind hk with ⟨u1, u2, x, rfl, h0, hk1⟩ | ⟨e, _⟩ | ⟨e, _⟩
  rotate_left
  · cases e
  · cases e
  obtain rfl : u1 = [⟨.clientsGet (r.get g!"client_id"), x⟩] := by
    cases h0 with
    | step _ _ _ _ _ h0 => cases h0; rfl
  rcases x with e | (_ | client)
  · cases not_err_tokens hk1
  · cases hk1
  dsimp only at hk1
  split at hk1
  · cases not_err_tokens hk1
  rename_i sub hsub
  split at hk1
  · cases not_err_tokens hk1
  rename_i ar har
  rcases exec_bind hk1 with ⟨t2, t3, res, rfl, h2, hk2⟩ | ⟨e, _⟩ | ⟨e, _⟩
  rotate_left
  · cases e
  · cases e
  split at hk2
  · obtain ⟨_, hc⟩ := withError_done hk2; cases hc
  rename_i hg
  have hd := done_sound (Authorization.authorize_done S.E _) h2
  simp only [List.nil_append] at hd
  rcases hd with ⟨_, q, a, eff, cl, n, sess, e1, hj, hfil, hres⟩ | ⟨hn, _⟩
  rotate_left
  · exact absurd (Or.inr (Or.inr (by simpa using hg))) hn
  cases e1
  obtain ⟨_, _, hact, _, heff, hcl, hval, _, hsess⟩ := hj
  have hcs : ⟨.csReg S.issuer res.code sess, .ok n⟩ ∈ t2 := by
    have : (⟨.csReg S.issuer res.code sess, .ok n⟩ : Ev) ∈ t2.filter storesSession := by rw [hfil]; exact List.mem_cons_self ..
    exact (List.mem_filter.1 this).1
  unfold deliver at hk2
  split at hk2
  · cases not_err_tokens hk2
  rename_i huri
  have hdel : deliveryOf res.responseMode = .queryJWT := by rw [hres]; exact (by decide : deliveryOf [] = .queryJWT)
  rw [hdel] at hk2
  dsimp only at hk2
  rcases exec_bind hk2 with ⟨t4, t5, x, rfl, h4, h5⟩ | ⟨e, _⟩ | ⟨e, _⟩
  rotate_left
  · cases e
  · cases e
  cases x with
  | none => cases not_err_tokens h5
  | some tok =>
    dsimp only at h5
    cases h5
    have hnow : ∃ now, t4 = [⟨.now, now⟩] ∧ S.jarmSer {
        state := res.state, iss := res.issuer, aud := res.clientId, code := res.code,
        exp := Device.unix (now + res.expiresIn * 1000000000) } = some content := by
      unfold Sign.jarmEncode at h4
      dsimp only [jarmResp] at h4
      by_cases c1 : res.issuer = []
      · rw [if_pos c1] at h4; cases h4
      rw [if_neg c1] at h4
      by_cases c2 : res.clientId = []
      · rw [if_pos c2] at h4; cases h4
      rw [if_neg c2] at h4
      by_cases c3 : res.code = []
      · rw [if_pos c3] at h4; cases h4
      rw [if_neg c3] at h4
      by_cases c4 : res.state = []
      · rw [if_pos c4] at h4; cases h4
      rw [if_neg c4] at h4
      by_cases c5 : res.expiresIn = 0
      · rw [if_pos c5] at h4; cases h4
      rw [if_neg c5] at h4
      cases h4 with
      | step _ _ now t6 _ h6 =>
        have e := exec_ret_done (α := Option Str) h6
        exact ⟨now, by rw [e.1], e.2⟩
    obtain ⟨now, rfl, hser⟩ := hnow
    refine ⟨client, ar, sub, res, n, sess, a, eff, now, by simp, har, hsub, ?_, by rw [hsess], by rw [hsess], heff, ?_, by simp, hres,
      rfl, by rw [hres], rfl, by rw [hres] at hser; exact hser, by simpa using huri, ?_⟩
    · simp [hcs]
    · obtain ⟨r0, e0, e1⟩ := hact
      refine ⟨r0, e0, e1.imp id ?_⟩
      rintro ⟨uri, e2, e3⟩
      exact ⟨uri, e2, by simp [e3]⟩
    · obtain ⟨reg, hm, hs⟩ := hval.redirectUri
      exact ⟨cl, reg, by simp [hcl], hm, by rw [hres]; exact hs⟩

/-- **C67** (signed requests only). An authorization is only answered to the logged-in user,
for a request object signed with a key registered by the client named in the query; the
code stands for that user (or their pseudonym for that client) and, unless the object refers to a
pushed request, for the request the object holds. -/
theorem C67_signed (S : Server) (r : Http.Req) (tr : List Ev) (st : Nat) (u : Str) (d : Delivery) (content : Str)
    (h : Exec (Http.serve S .authorize r) tr (.done ⟨st, .authorization u d content⟩)) :
    r.method = g!"GET" ∧ r.basic = some (g!"hello", g!"world") ∧ ∃ client t keys k ar code sess n,
      ⟨.clientsGet (r.get g!"client_id"), .ok (some client)⟩ ∈ tr ∧ S.P.jwks client.jwks = some keys ∧
      k ∈ keys ∧ k.use ≠ g!"enc" ∧ S.requestParse (r.get g!"request") = some t ∧ t.verifies k = true ∧
      S.requestDec t.payload = some ar ∧ ⟨.csReg S.issuer code sess, .ok n⟩ ∈ tr ∧
      (client.subjectType ≠ g!"pairwise" → sess.subject = g!"hello") ∧
      (client.subjectType = g!"pairwise" →
        Lib.pairwise S.pairHash S.pairSalt client.sectorIdentifier g!"hello" = some sess.subject) ∧
      (ar.requestUri = none → u = ar.redirectUri ∧ ∃ eff, sess.request = some eff ∧ Effective ar eff) := by
  obtain ⟨h1, h2, client, ar, sub, res, n, sess, a, eff, now, k1, k2, k3, k4, k5, k6, k7, k8, _, _, _, hu, _⟩ := authorization_facts h
  obtain ⟨t, keys, k, d1, d2, d3, d4, d5, d6⟩ := decodeRequest_some k2
  refine ⟨h1, h2, client, t, keys, k, ar, res.code, sess, n, k1, d2, d3, d4, d1, d5, d6, k4, ?_, ?_, ?_⟩
  · intro hc
    rw [if_neg hc] at k3
    rw [k5]; exact (Option.some.inj k3).symm
  · intro hc
    rw [if_pos hc] at k3
    rw [k5]; exact k3
  · intro hr
    obtain ⟨r0, e0, e1⟩ := k8
    cases e0
    rcases e1 with ⟨_, rfl⟩ | ⟨uri, e2, _⟩
    · exact ⟨hu, eff, k6, k7⟩
    · rw [hr] at e2; cases e2

def Demo.httpAuthorize (object : Str) : Http.Req where
  method := g!"GET"
  query := Demo.form [(g!"client_id", g!"app"), (g!"request", object)]
  basic := some (g!"hello", g!"world")

/-- The authorization in an answer. -/
def _root_.Verif.Http.Resp.authorization? (a : Http.Resp) : Option (Str × Delivery × Str) :=
  match a.body with
  | .authorization u d c => some (u, d, c)
  | _ => none

theorem authorization?_eq {a : Http.Resp} {u : Str} {d : Delivery} {c : Str} (h : a.authorization? = some (u, d, c)) :
    a = ⟨a.status, .authorization u d c⟩ := by
  obtain ⟨s, b⟩ := a
  cases b <;> simp_all [Http.Resp.authorization?]

/-- The run of the examples, for the request objects of `Demo.server`. -/
theorem demoAuthorize (object id : Str) (mode : Option Str)
    (hd : object = g!"ro" ∧ id = g!"app" ∧ mode = some g!"form_post.jwt" ∨ object = g!"other-ro" ∧ id = g!"other" ∧ mode = some g!"query.jwt") :
    ∃ tr st u content i c n s eff,
      Exec (Http.serve Demo.server .authorize (Demo.httpAuthorize object)) tr (.done ⟨st, .authorization u .queryJWT content⟩) ∧
      (∀ ev ∈ tr, StoreContract ev) ∧ ⟨.csReg i c s, .ok n⟩ ∈ tr ∧ s.request = some eff ∧ eff.clientId = id ∧
      eff.responseMode = mode := by
  have key : ∃ tr a b, Exec (Http.serve Demo.server .authorize (Demo.httpAuthorize object)) tr (.done a) ∧
      (∀ ev ∈ tr, StoreContract ev) ∧ a.authorization? = some b ∧ b.2.1 = .queryJWT ∧ (codeSessions tr).length = 1 ∧
      ∀ s ∈ codeSessions tr, s.request.map (fun e => (e.clientId, e.responseMode)) = some (id, mode) := by
    rcases hd with ⟨rfl, rfl, rfl⟩ | ⟨rfl, rfl, rfl⟩ <;>
    exact oracle_sel Demo.httpAnswers _ Http.Resp.authorization? StoreContract
      (fun tr b => b.2.1 = .queryJWT ∧ (codeSessions tr).length = 1 ∧
        ∀ s ∈ codeSessions tr, s.request.map (fun e => (e.clientId, e.responseMode)) = some (_, _))
      Demo.httpAnswers_contract (by decide +kernel)
  obtain ⟨tr, a, ⟨u, d, content⟩, h1, h2, h3, h4, h5, h6⟩ := key
  dsimp only at h4
  subst h4
  rw [authorization?_eq h3] at h1
  obtain ⟨s, hs⟩ := List.exists_mem_of_length_pos (l := codeSessions tr) (by omega)
  obtain ⟨i, c, n, hm⟩ := mem_codeSessions hs
  obtain ⟨eff, he, hid⟩ := Option.map_eq_some_iff.1 (h6 s hs)
  cases hid
  exact ⟨tr, _, u, content, i, c, n, s, eff, h1, h2, hm, he, rfl, rfl⟩

example : ∃ tr st u d content,
    Exec (Http.serve Demo.server .authorize (Demo.httpAuthorize g!"ro")) tr (.done ⟨st, .authorization u d content⟩) := by
  obtain ⟨tr, st, u, content, _, _, _, _, _, h, _⟩ := demoAuthorize g!"ro" _ _ (Or.inl ⟨rfl, rfl, rfl⟩)
  exact ⟨tr, st, u, _, content, h⟩

/-- **C67_violated.** The code can be issued to another client than the one whose key signed
the request object: nothing compares the `client_id` of the query with the one in the object. -/
theorem C67_violated : ∃ (S : Server) (r : Http.Req) (tr : List Ev) (a : Http.Resp) (i c : Str) (n : Nat) (s : CodeSession)
    (eff : AuthzRequest), Exec (Http.serve S .authorize r) tr (.done a) ∧ (∀ ev ∈ tr, StoreContract ev) ∧
      ⟨.csReg i c s, .ok n⟩ ∈ tr ∧ s.request = some eff ∧ r.get g!"client_id" = g!"app" ∧ eff.clientId = g!"other" := by
  obtain ⟨tr, st, u, content, i, c, n, s, eff, h1, h2, h3, h4, h5, _⟩ := demoAuthorize g!"other-ro" _ _ (Or.inr ⟨rfl, rfl, rfl⟩)
  exact ⟨_, _, tr, _, i, c, n, s, eff, h1, h2, h3, h4, by decide, h5⟩

/-- **C68** (content of the authorization answer). It is a redirection to the redirect URI of
the request the code stands for, and the signed answer holds this server as issuer, the client
as audience, the code and the state of that request, and expires with the code. -/
theorem C68_content (S : Server) (r : Http.Req) (tr : List Ev) (st : Nat) (u : Str) (d : Delivery) (content : Str)
    (h : Exec (Http.serve S .authorize r) tr (.done ⟨st, .authorization u d content⟩)) :
    st = 302 ∧ ∃ code sess n eff now, ⟨.csReg S.issuer code sess, .ok n⟩ ∈ tr ∧ sess.request = some eff ∧
      ⟨.now, now⟩ ∈ tr ∧ u = eff.redirectUri ∧
      S.jarmSer { iss := S.issuer, aud := eff.clientId, exp := now / 1000000000 + n, code := code, state := eff.state }
        = some content := by
  obtain ⟨h1, h2, client, ar, sub, res, n, sess, a, eff, now, k1, k2, k3, k4, k5, k6, k7, k8, k9, k10, k11, hu, _, hser, _⟩ :=
    authorization_facts h
  have e1 := congrArg AuthzRequest.redirectUri k7.rest
  have e2 := congrArg AuthzRequest.clientId k7.rest
  have e3 := congrArg AuthzRequest.state k7.rest
  dsimp only at e1 e2 e3
  refine ⟨k11, res.code, sess, n, eff, now, k4, k6, k9, by rw [hu, e1], ?_⟩
  rw [e2, e3]
  have : Device.unix (now + n * 1000000000) = now / 1000000000 + n := seconds_add now n
  rw [← this]
  exact hser

/-- **C68_violated.** The response mode of the request is ignored: the answer is always delivered
in the query, even when the client asked for a form post. -/
theorem C68_violated :
    (∀ (S : Server) (r : Http.Req) (tr : List Ev) (st : Nat) (u : Str) (d : Delivery) (content : Str),
      Exec (Http.serve S .authorize r) tr (.done ⟨st, .authorization u d content⟩) → d = .queryJWT) ∧
    ∃ (S : Server) (r : Http.Req) (tr : List Ev) (st : Nat) (u content : Str) (i c : Str) (n : Nat) (s : CodeSession)
      (eff : AuthzRequest), Exec (Http.serve S .authorize r) tr (.done ⟨st, .authorization u .queryJWT content⟩) ∧
      (∀ ev ∈ tr, StoreContract ev) ∧ ⟨.csReg i c s, .ok n⟩ ∈ tr ∧ s.request = some eff ∧
      eff.responseMode = some g!"form_post.jwt" := by
  constructor
  · intro S r tr st u d content h
    obtain ⟨_, _, client, ar, sub, res, n, sess, a, eff, now, _, _, _, _, _, _, _, _, _, _, _, _, hd, _⟩ := authorization_facts h
    exact hd
  · obtain ⟨tr, st, u, content, i, c, n, s, eff, h1, h2, h3, h4, _, h6⟩ := demoAuthorize g!"ro" _ _ (Or.inl ⟨rfl, rfl, rfl⟩)
    exact ⟨_, _, tr, st, u, content, i, c, n, s, eff, h1, h2, h3, h4, h6⟩

/-! ### The grants of the token endpoint -/

/-- **C69** (grants). Tokens are answered only for a grant advertised in the server metadata that
the client stored under the identifier of the requesting client has registered. -/
theorem C69_grants (S : Server) (r : Http.Req) (tr : List Ev) (st : Nat) (b : TokenBody)
    (hnil : ∀ id, ⟨.clientsGet id, .ok none⟩ ∉ tr) (h : Exec (Http.serve S .token r) tr (.done ⟨st, .tokens b⟩)) :
    r.formValue g!"grant_type" ∈ grantTypesSupported ∧
    r.formValue g!"grant_type" ≠ g!"urn:ietf:params:oauth:grant-type:token-exchange" ∧
    ∃ c cl, FromClient S.P r tr c ∧ ⟨.clientsGet c.clientId, .ok (some cl)⟩ ∈ tr ∧
      MemFold (r.formValue g!"grant_type") cl.grantTypes := by
  rcases clientAuth_exec h hnil with ⟨_, h2, _⟩ | ⟨c, t1, t2, rfl, _, hf, hk⟩
  · obtain ⟨e, he⟩ := h2 _ rfl
    simp at he
  obtain ⟨hm, d, u1, u2, cnf, res, u3, rfl, h4, h5, _⟩ := tokenHandler_tokens hk
  obtain ⟨at_, md, now, a1, a2, _⟩ := tokenAnswer_tokens h5
  rcases token_exec h4 with ⟨hr, _⟩ | ⟨q, c', cl, evs, h1, h2, h3, hs⟩
  · exact absurd (returnsToken_iff.2 ⟨at_, Or.inl a2⟩) (refused_no_token hr)
  cases h1
  cases h2
  have hf' : FromClient S.P r (t1 ++ (u1 ++ (u2 ++ u3))) c := hf.mono fun ev hev => List.mem_append_left _ hev
  have hc : ⟨.clientsGet c.clientId, .ok (some cl)⟩ ∈ t1 ++ (u1 ++ (u2 ++ u3)) := by simp [h3]
  have key : ∀ ty, r.formValue g!"grant_type" = ty → ty ∈ grantTypesSupported →
      ty ≠ g!"urn:ietf:params:oauth:grant-type:token-exchange" → MemFold ty cl.grantTypes →
      r.formValue g!"grant_type" ∈ grantTypesSupported ∧
      r.formValue g!"grant_type" ≠ g!"urn:ietf:params:oauth:grant-type:token-exchange" ∧
      ∃ c' cl, FromClient S.P r (t1 ++ (u1 ++ (u2 ++ u3))) c' ∧
        ⟨.clientsGet c'.clientId, .ok (some cl)⟩ ∈ t1 ++ (u1 ++ (u2 ++ u3)) ∧
        MemFold (r.formValue g!"grant_type") cl.grantTypes := by
    rintro ty h1 h2 h3 h4
    rw [h1]
    exact ⟨h2, h3, c, cl, hf', hc, h4⟩
  cases hs with
  | code g sess ar mint hg hty h => exact key _ hty (by decide) (by decide) h.grant
  | cc at_ hg hty h => exact key _ hty (by decide) (by decide) h.grant
  | device dc ref session dreq subject now mint hg hty h => exact key _ hty (by decide) (by decide) h.grant
  | refresh v rt md now mint hg hty h => exact key _ hty (by decide) (by decide) h.grant
  | exchange g st md now now2 jti v aud t' look hg _ h => exact absurd hg grantOf_not_exchange

/-- The example answers with the confidential client `good`. -/
def Demo.grantAnswers (c : Cmd) : c.Res :=
  match c with
  | .clientsGet id => .ok (some { Demo.httpClient id with
      clientType := if id = g!"good" then .confidential else .pub })
  | c => Demo.answers c

/-- A token request of the examples for each grant. -/
def Demo.grantRequest (ty : Str) : Http.Req where
  method := g!"POST"
  query := Demo.form (if ty = Oidc.grantClientCredentials then [] else [(g!"client_id", g!"app")])
  post := Demo.form [(g!"grant_type", ty), (g!"code", g!"c0de"), (g!"redirect_uri", g!"https://app/cb"),
    (g!"code_verifier", Demo.verifier), (g!"device_code", g!"dc"), (g!"refresh_token", g!"rt"),
    (g!"client_assertion_type", ClientAuth.typeBearer), (g!"client_assertion", g!"assertion")]

/-- **C69_violated.** Token exchange is advertised but never answered with tokens; every other
advertised grant can be. -/
theorem C69_violated :
    g!"urn:ietf:params:oauth:grant-type:token-exchange" ∈ grantTypesSupported ∧
    (∀ (S : Server) (r : Http.Req) (tr : List Ev) (st : Nat) (b : TokenBody), (∀ id, ⟨.clientsGet id, .ok none⟩ ∉ tr) →
      r.formValue g!"grant_type" = g!"urn:ietf:params:oauth:grant-type:token-exchange" →
      ¬ Exec (Http.serve S .token r) tr (.done ⟨st, .tokens b⟩)) ∧
    ∀ ty ∈ grantTypesSupported, ty ≠ g!"urn:ietf:params:oauth:grant-type:token-exchange" →
      ∃ (S : Server) (r : Http.Req) (tr : List Ev) (b : TokenBody), r.formValue g!"grant_type" = ty ∧
        (∀ ev ∈ tr, StoreContract ev) ∧ Exec (Http.serve S .token r) tr (.done ⟨200, .tokens b⟩) := by
  refine ⟨by decide, fun S r tr st b hnil hty h => (C69_grants S r tr st b hnil h).2.1 hty, ?_⟩
  have hW : ∀ c, StoreContract ⟨c, Demo.grantAnswers c⟩ := by
    intro c
    cases c <;> simp [StoreContract, Demo.grantAnswers, Demo.answers]
  have key : ∀ ty, (Demo.grantRequest ty).formValue g!"grant_type" = ty →
      ((Prog.oracle Demo.grantAnswers (Http.serve Demo.server .token (Demo.grantRequest ty))).2.get?.bind
        Http.Resp.tokens?).any (fun _ => decide True) = true →
      ∃ (S : Server) (r : Http.Req) (tr : List Ev) (b : TokenBody), r.formValue g!"grant_type" = ty ∧
        (∀ ev ∈ tr, StoreContract ev) ∧ Exec (Http.serve S .token r) tr (.done ⟨200, .tokens b⟩) := by
    intro ty h1 h2
    obtain ⟨tr, a, b, k1, k2, k3, _⟩ := oracle_sel Demo.grantAnswers _ Http.Resp.tokens? StoreContract (fun _ _ => True) hW h2
    rw [Http.Resp.tokens?_eq k3] at k1
    exact ⟨_, _, tr, b, h1, k2, k1⟩
  intro ty hty hne
  simp only [grantTypesSupported, List.mem_cons, List.not_mem_nil, or_false] at hty
  rcases hty with rfl | rfl | rfl | rfl | rfl
  · exact key _ (by decide) (by decide +kernel)
  · exact key _ (by decide) (by decide +kernel)
  · exact key _ (by decide) (by decide +kernel)
  · exact key _ (by decide) (by decide +kernel)
  · exact absurd rfl hne

end Verif.Props
