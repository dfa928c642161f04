import Verif.Proofs.Serve
import Verif.Proofs.Tokens
import Verif.Props.Codes
import Verif.Props.Lib

/-!
Completeness (C57): what a correct client asks for, it gets. After any history of
the server, a request served without storage faults succeeds when it meets the
conditions of the other properties.
-/
namespace Verif.Props
open Verif.Spec Verif.Prog Verif.TokenSvc Verif.Store Verif.Authorization
variable {E : Env}

/-- The syntax checks accept every well-formed request. -/
theorem checkRequest_complete {r : AuthzRequest} (h : WellFormed E r) : ∃ eff, checkRequest E (some r) = .ok eff := by
  obtain ⟨h1, h2, h3, h4, h5, h6, h7, ⟨h8, h9⟩, h10, h11⟩ := h
  have e1 : r.state ≠ [] := by rintro e; rw [e] at h1; simp at h1
  have e2 : r.nonce ≠ [] := by rintro e; rw [e] at h2; simp at h2
  have e3 : r.codeChallenge ≠ [] := by rintro e; rw [e] at h3; simp at h3
  have e4 : r.codeChallengeMethod ≠ [] := by rw [h4]; decide
  have e5 : r.responseType ≠ [] := by rcases h10 with h | h <;> rw [h] <;> decide
  have e6 : responseTypeOk r.responseType = true := by rcases h10 with h | h <;> rw [h] <;> decide
  have e7 : responseModeBad r.responseMode = false := by
    cases hm : r.responseMode with
    | none => rfl
    | some m =>
      have := h11 m hm
      simp only [List.mem_cons, List.not_mem_nil, or_false] at this
      rcases this with rfl | rfl | rfl | rfl | rfl | rfl | rfl <;> decide
  have e8 : r.codeChallengeMethod = Oidc.methodS256 := h4
  refine ⟨{ r with
    responseMode := r.responseMode.map (expandMode r.responseType), scope := cleanScope r.scope r.prompt }, ?_⟩
  unfold checkRequest
  simp only [e1, e2, e3, e5, e6, e7, h5, h6, h7, h8, h9, h3, e8, show ¬ r.state.length < 32 by omega,
    show ¬ r.nonce.length < 8 by omega, e8 ▸ e4, if_false, or_self, ne_eq, not_true, Bool.false_eq_true]

/-- The capability checks accept every registered client. -/
theorem checkClient_complete {cl : Client} {r eff : AuthzRequest} (he : Effective r eff) (h : Registered cl r) :
    checkClient cl eff = .ok () := by
  have e1 : eff.responseType = r.responseType := by have := congrArg AuthzRequest.responseType he.rest; simpa using this
  have e2 : eff.redirectUri = r.redirectUri := by have := congrArg AuthzRequest.redirectUri he.rest; simpa using this
  have a1 := (contains_iff _ _).2 h.grant
  have a2 := (contains_iff _ _).2 h.responseType
  have a3 := (contains_iff _ _).2 h.redirectUri
  have a1' : StringArray.contains cl.grantTypes Oidc.grantAuthorizationCode = true := a1
  unfold checkClient
  simp only [e1, e2, a1', a2, a3, not_true, if_false]
  rw [he.mode]
  cases hm : r.responseMode with
  | none => rfl
  | some m =>
    have a4 := (contains_iff _ _).2 (h.responseMode m hm)
    simp [a4]

/-- **C57** (authorization). After any history, an authorization request that is well
formed, whose client is registered as required, and which is served without
faults, is answered with a code; the session for it is then stored for 60 seconds. -/
theorem C57_authorize (s : St) (ls : List Label) {q : AuthorizeReq} {r : AuthzRequest} {cl : Client}
    (hq : q.request = some r) (hu : r.requestUri = none) (hiss : q.issuer ≠ []) (hsub : q.subject ≠ [])
    (hwf : WellFormed E r) (hcl : (run E s ls).st.clients r.clientId = some cl) (hreg : Registered cl r)
    {chs : List Choice} (hund : Undisturbed chs) (hn : 3 ≤ chs.length) {n : Nat} (hlen : (run E s ls).threads.length = n) :
    ∃ a eff, Answered (run E s (ls ++ serve n (.authorize (some q)) chs)) n (.authorize (some q)) (.authorize a) ∧
      a = { code := a.code, state := r.state, redirectUri := r.redirectUri, clientId := r.clientId,
            expiresIn := 60, issuer := q.issuer } ∧ a.code ≠ [] ∧ Effective r eff ∧
      (run E s (ls ++ serve n (.authorize (some q)) chs)).st =
        { (run E s ls).st with codes := (upd (run E s ls).st.codes (codeKey E q.issuer a.code)
            (some ({ issuer := q.issuer, subject := q.subject, request := some eff },
              (run E s ls).st.clock + 60 * second))) } := by
  subst hlen
  obtain ⟨eff, hck⟩ := checkRequest_complete hwf
  obtain ⟨r', e, _, he, _⟩ := checkRequest_ok hck
  simp at e; subst e
  have ec : eff.clientId = r.clientId := by have := congrArg AuthzRequest.clientId he.rest; simpa using this
  have es : eff.state = r.state := by have := congrArg AuthzRequest.state he.rest; simpa using this
  have er : eff.redirectUri = r.redirectUri := by have := congrArg AuthzRequest.redirectUri he.rest; simpa using this
  have hg : Good E (fun a st => ∃ a', a = .authorize a' ∧
      a' = { code := a'.code, state := r.state, redirectUri := r.redirectUri, clientId := r.clientId, expiresIn := 60, issuer := q.issuer } ∧ a'.code ≠ [] ∧
      st = { (run E s ls).st with codes := (upd (run E s ls).st.codes (codeKey E q.issuer a'.code)
            (some ({ issuer := q.issuer, subject := q.subject, request := some eff },
              (run E s ls).st.clock + 60 * second))) })
      (handle E (.authorize (some q))) 3 (run E s ls).st := by
    simp only [handle, authorize, hq, hiss, hsub, if_false, hu, authorizeWith, validate, hck, Prog.call, bind_op,
      bind_ret, pure_eq, Good, exec, faulty, ec, hcl, found, checkClient_complete he hreg, gen]
    intro _ _ code hcode _ _
    exact ⟨_, rfl, by simp [es, er], hcode, rfl⟩
  obtain ⟨a, h1, ⟨a', rfl, h2, h3, h4⟩, -⟩ := serve_good hg hund hn
  exact ⟨a', eff, h1, h2, h3, he, h4⟩

/-- Token generation of the code grant, undisturbed. -/
theorem good_codeTokens (cl : Client) (q : TokenReq) (sub : Str) (ar : AuthzRequest) (s : St) :
    Good E (fun a _ => Succeeds a ∧
      (HasWord g!"openid" ar.scope → ∃ t, a.accessToken = some t ∧
        Carries t q.issuer sub cl.clientId ar.scope ar.audience q.tokenConfirmation) ∧
      (HasWord g!"openid" ar.scope → HasWord g!"offline_access" ar.scope → ∃ t, a.refreshToken = some t ∧
        Carries t q.issuer sub cl.clientId ar.scope ar.audience q.tokenConfirmation))
      (codeTokens cl q sub ar) 8 s := by
  unfold codeTokens
  simp only
  split
  · refine good_bind (m := 4) (n := 4) (good_accessToken cl _ _ s) ?_
    rintro _ s' ⟨jti, v, hv, rfl, -⟩
    simp only
    split
    · refine good_bind (m := 4) (n := 0) (good_refreshToken cl _ _ s') ?_
      rintro _ s'' ⟨jti', v', hv', rfl, -⟩
      exact ⟨rfl, fun _ => ⟨_, rfl, ⟨⟨_, rfl, rfl, rfl, rfl, rfl, rfl⟩, rfl, rfl⟩⟩,
        fun _ _ => ⟨_, rfl, ⟨⟨_, rfl, rfl, rfl, rfl, rfl, rfl⟩, rfl, rfl⟩⟩⟩
    · rename_i ho
      exact ⟨rfl, fun _ => ⟨_, rfl, ⟨⟨_, rfl, rfl, rfl, rfl, rfl, rfl⟩, rfl, rfl⟩⟩,
        fun _ h => absurd ((contains_fields ar.scope g!"offline_access").2 h) ho⟩
  · rename_i ho
    exact ⟨rfl, fun h => absurd ((contains_fields ar.scope g!"openid").2 h) ho,
      fun h => absurd ((contains_fields ar.scope g!"openid").2 h) ho⟩

/-- **C57** (redemption). Take any history in which authorization request number `j`
was answered with a code for a request submitted directly (`r`), at most 60 seconds
ago, and no other request stored or deleted a session under that code. If now the
client presents the code with the redirect URI and the verifier of the challenge,
and this is served without faults, then it succeeds, with an access token for the
authorizing user when the scope asked for `openid`, and also a refresh token when
`offline_access` was asked for with consent. -/
theorem C57_redeem (s : St) (ls : List Label) {j : Nat} {aq : AuthorizeReq} {a : AuthorizeResp} {r : AuthzRequest}
    (ha : Answered (run E s ls) j (.authorize (some aq)) (.authorize a)) (hi : Issued a) (hr : aq.request = some r)
    (hru : r.requestUri = none)
    (hage : ∀ e ∈ (run E s ls).log, e.tid = j → (run E s ls).st.clock ≤ e.time + 60 * second)
    (hown : ∀ e ∈ (run E s ls).log, e.tid ≠ j → ∀ i c, ((∃ cs, e.cmd = .csReg i c cs) ∨ e.cmd = .csDel i c) →
      codeKey E i c ≠ codeKey E aq.issuer a.code)
    {q : TokenReq} {g : GrantCode} {cl : Client} (hcl : (run E s ls).st.clients cl.clientId = some cl)
    (hgt : MemFold g!"authorization_code" cl.grantTypes) (hreg : MemFold r.redirectUri cl.redirectUris)
    (hiss : q.issuer = aq.issuer) (hurl : E.parseRequestURI q.issuer = true) (hqc : q.client = some cl)
    (hqt : q.grantType = g!"authorization_code") (hqg : q.grant = some (.authorizationCode g))
    (hcode : g.code = a.code) (hne : a.code ≠ []) (hrunes : Go.runeCount a.code ≤ 1024)
    (hredir : g.redirectUri = r.redirectUri) (hver : Go.b64 (E.sha256 g.codeVerifier) = r.codeChallenge)
    (hver1 : 43 ≤ g.codeVerifier.length) (hver2 : g.codeVerifier.length ≤ 128)
    {chs : List Choice} (hund : Undisturbed chs) (hn : 11 ≤ chs.length) {n : Nat} (hlen : (run E s ls).threads.length = n) :
    ∃ b eff, Answered (run E s (ls ++ serve n (.token (some q)) chs)) n (.token (some q)) (.token b) ∧ Succeeds b ∧
      Effective r eff ∧
      (HasWord g!"openid" r.scope → ∃ t, b.accessToken = some t ∧
        Carries t aq.issuer aq.subject cl.clientId eff.scope r.audience q.tokenConfirmation) ∧
      (HasWord g!"openid" r.scope → HasWord g!"offline_access" r.scope → r.prompt = some g!"consent" →
        ∃ t, b.refreshToken = some t ∧
          Carries t aq.issuer aq.subject cl.clientId eff.scope r.audience q.tokenConfirmation) := by
  subst hlen
  -- the stored session
  have hd := done_sound (authorize_done E (some aq)) ha.authorize
  simp only [List.nil_append] at hd
  rcases hd with ⟨_, q', r', eff, cl0, n', s', h1, ⟨hi1, hi2, hact, hwf, heff, _, _, _, rfl⟩, h4, _⟩ | ⟨hn', _⟩
  case inr => exact absurd hi hn'
  simp at h1; subst h1
  have hrr : r' = r := by
    obtain ⟨r1, hr1, hor⟩ := hact
    rw [hr] at hr1; simp at hr1; subst hr1
    rcases hor with ⟨_, h⟩ | ⟨u, hu', _⟩
    · exact h
    · rw [hru] at hu'; simp at hu'
  subst hrr
  have hmem : (⟨.csReg aq.issuer a.code { issuer := aq.issuer, subject := aq.subject, request := some eff }, .ok n'⟩ : Ev) ∈
      (callsOf E j (run E s ls).log).filter storesSession := by rw [h4]; simp
  obtain ⟨m, e0, b1, b2, b3⟩ := mem_callsOf_iff.1 (List.mem_filter.1 hmem).1
  obtain ⟨rfl, b4⟩ := Entry.csReg_ok b3
  -- is still there
  have hst : (run E s ls).st.codes (codeKey E aq.issuer a.code) =
      some ({ issuer := aq.issuer, subject := aq.subject, request := some eff }, e0.time + 60 * second) := by
    refine Linked.keepEnd (codes_timeless _ _) (linked_run E s ls) b1 b4 ?_
    intro k e' hk he' hp
    have hpost : (e'.post E).codes = e'.pre.codes ∨
      (∃ i code, e'.cmd = .csDel i code ∧ (e'.post E).codes = upd e'.pre.codes (codeKey E i code) none) ∨
      (∃ i code cs, e'.cmd = .csReg i code cs ∧
        (e'.post E).codes = upd e'.pre.codes (codeKey E i code) (some (cs, e'.pre.clock + 60 * second))) :=
      exec_codes E e'.cmd e'.choice e'.pre
    by_cases ht : e'.tid = j
    · -- an authorization request stores one session and deletes none
      obtain ⟨th, t1, t2, -⟩ := ha
      have hask : Asked (run E s ls) e'.tid (.authorize (some aq)) := by rw [ht]; exact ⟨th, t1, t2⟩
      rcases hpost with h | ⟨i, c, hc, h⟩ | ⟨i, c, cs, hc, h⟩
      · rw [h]; exact hp
      · obtain ⟨rq, ha', hf⟩ := entry_foot he'
        rw [ha'.unique hask, hc] at hf
        simp [reqCmds, authorizeCmds] at hf
      · have := most_unique (S := isReg) hask (most_map (most_authorize E _)) b1 he' (b2.trans ht.symm) rfl
          (by rw [Entry.cmd_eq b3]; rfl) (by rw [hc]; rfl)
        omega
    · rcases hpost with h | ⟨i, c, hc, h⟩ | ⟨i, c, cs, hc, h⟩
      · rw [h]; exact hp
      · rw [h]; simp only [upd]
        rw [if_neg (Ne.symm (hown e' (List.mem_of_getElem? he') ht i c (Or.inr hc)))]
        exact hp
      · rw [h]; simp only [upd]
        rw [if_neg (Ne.symm (hown e' (List.mem_of_getElem? he') ht i c (Or.inl ⟨cs, hc⟩)))]
        exact hp
  have hlive := hage e0 (List.mem_of_getElem? b1) b2
  have es : eff.redirectUri = r'.redirectUri := by have := congrArg AuthzRequest.redirectUri heff.rest; simpa using this
  have ec : eff.codeChallenge = r'.codeChallenge := by have := congrArg AuthzRequest.codeChallenge heff.rest; simpa using this
  have em : eff.codeChallengeMethod = r'.codeChallengeMethod := by
    have := congrArg AuthzRequest.codeChallengeMethod heff.rest; simpa using this
  have ea : eff.audience = r'.audience := by have := congrArg AuthzRequest.audience heff.rest; simpa using this
  have hchk : codeChecks E cl g eff = none := by
    unfold codeChecks
    have e2 : StringArray.contains cl.redirectUris g.redirectUri = true := (contains_iff _ _).2 (hredir ▸ hreg)
    have e3 : eff.codeChallengeMethod = Oidc.methodS256 := by rw [em]; exact hwf.method
    simp [es, hredir, hredir ▸ e2, e3, ec, hver]
  have good : Good E (fun b _ => ∃ a', b = .token a' ∧ Succeeds a' ∧
      (HasWord g!"openid" eff.scope → ∃ t, a'.accessToken = some t ∧
        Carries t q.issuer aq.subject cl.clientId eff.scope eff.audience q.tokenConfirmation) ∧
      (HasWord g!"openid" eff.scope → HasWord g!"offline_access" eff.scope → ∃ t, a'.refreshToken = some t ∧
        Carries t q.issuer aq.subject cl.clientId eff.scope eff.audience q.tokenConfirmation))
      (handle E (.token (some q))) 11 (run E s ls).st := by
    have hqi : q.issuer ≠ [] := hiss ▸ hi1
    have hv : validateRequest (some q) = none := by
      simp [validateRequest, hqi, hqc, hqt, hqg, Oidc.grantAuthorizationCode]
    have hdisp : dispatch E (some cl) q = authorizationCode E (some cl) q g := by
      simp [dispatch, hqt, hqg, Oidc.grantClientCredentials, Oidc.grantAuthorizationCode]
    refine good_bind (m := 11) (n := 0) (f := fun b => Prog.ret (Resp.token b)) (good_token (n := 10) hv hqc hcl
      (Φ := fun a' _ => Succeeds a' ∧
      (HasWord g!"openid" eff.scope → ∃ t, a'.accessToken = some t ∧
        Carries t q.issuer aq.subject cl.clientId eff.scope eff.audience q.tokenConfirmation) ∧
      (HasWord g!"openid" eff.scope → HasWord g!"offline_access" eff.scope → ∃ t, a'.refreshToken = some t ∧
        Carries t q.issuer aq.subject cl.clientId eff.scope eff.audience q.tokenConfirmation)) ?_)
      (fun a s' g => ⟨a, rfl, g⟩)
    have hgt' : StringArray.contains cl.grantTypes Oidc.grantAuthorizationCode = true := (contains_iff _ _).2 hgt
    have c1 : ¬ (g.code = [] ∨ g.codeVerifier = [] ∨ g.redirectUri = []) := by
      rintro (h | h | h)
      · exact hne (hcode ▸ h)
      · rw [h] at hver1; simp at hver1
      · exact hwf.redirect.1 (hredir ▸ h)
    have c2 : ¬ Go.runeCount g.code > 1024 := by rw [hcode]; omega
    have hst' := hst
    rw [← hiss, ← hcode] at hst'
    simp only [hdisp, authorizationCode, hqi, hurl, hgt', c1, c2, show ¬ g.codeVerifier.length < 43 by omega,
      show ¬ g.codeVerifier.length > 128 by omega, if_false, not_true, Prog.call, bind_op, bind_ret, Good, exec,
      faulty, hst', live, hlive, if_true, found]
    intro _ _ _ _
    simp only [hchk]
    exact good_codeTokens cl q aq.subject eff _
  obtain ⟨b, m1, ⟨a', rfl, m2, m3, m4⟩, -⟩ := serve_good good hund hn
  refine ⟨a', eff, m1, m2, heff, ?_, ?_⟩
  · intro h
    rw [← hiss, ← ea]
    refine m3 ?_
    obtain ⟨v, hv, hsf⟩ := h
    refine ⟨v, heff.scopeKept v hv ?_, hsf⟩
    intro h'
    exact absurd (h'.trans hsf.symm) (by decide)
  · intro h ho hp
    rw [← hiss, ← ea]
    have keep := heff.scopeConsent hp
    obtain ⟨v, hv, hsf⟩ := h
    obtain ⟨w, hw, hsf'⟩ := ho
    exact m4 ⟨v, keep v hv, hsf⟩ ⟨w, keep w hw, hsf'⟩

theorem accessToken_expiry (cl : Client) (md : TokenMeta) (cnf : Option Cnf) (now : Nat) (jti v : Str) :
    (({ accessTokenSpec cl md cnf now jti with value := v } : Token).metadata.map (·.expiresAt)).getD 0 =
      seconds now + 3600 := by
  have h : (({ accessTokenSpec cl md cnf now jti with value := v } : Token).metadata.map (·.expiresAt)) =
      some (Device.unix (now + 3600 * 1000000000)) := rfl
  rw [h, Option.getD_some]
  exact seconds_add now 3600

/-- **C57** (refresh). After any history: a stored, active, unexpired refresh token of
the client, presented by it and served without faults, yields an access token with
the same issuer, user, scope, audience and key binding; when the new access token
would outlive the refresh token, also a new refresh token, and the old one is
revoked. -/
theorem C57_refresh (s : St) (ls : List Label) {q : TokenReq} {v : Str} {cl : Client} {rt : Token} {md : TokenMeta}
    (hcl : (run E s ls).st.clients cl.clientId = some cl) (hgt : MemFold g!"refresh_token" cl.grantTypes)
    (hiss : q.issuer ≠ []) (hurl : E.parseRequestURI q.issuer = true) (hqc : q.client = some cl)
    (hqt : q.grantType = g!"refresh_token") (hqg : q.grant = some (.refreshToken v)) (hv : v ≠ [])
    (hrt : (run E s ls).st.tokVal (tokenKey E q.issuer v) = some rt) (hact : rt.status = .active)
    (htype : rt.tokenType = .refreshToken) (hmd : rt.metadata = some md)
    (hexp : seconds (run E s ls).st.clock ≤ md.expiresAt) (hcid : md.clientId = cl.clientId)
    (hid : ∃ t, (run E s ls).st.tokId rt.tokenId = some t)
    {chs : List Choice} (hund : Undisturbed chs) (hn : 12 ≤ chs.length) {n : Nat} (hlen : (run E s ls).threads.length = n) :
    ∃ b t, Answered (run E s (ls ++ serve n (.token (some q)) chs)) n (.token (some q)) (.token b) ∧ Succeeds b ∧
      b.accessToken = some t ∧ Carries t md.issuer md.subject cl.clientId md.scope md.audience rt.confirmation ∧
      (seconds (run E s ls).st.clock + 3600 ≤ md.expiresAt → b.refreshToken = none) ∧
      (md.expiresAt < seconds (run E s ls).st.clock + 3600 → ∃ t', b.refreshToken = some t' ∧
        Carries t' md.issuer md.subject cl.clientId md.scope md.audience rt.confirmation) := by
  subst hlen
  have hv' : validateRequest (some q) = none := by
    simp [validateRequest, hiss, hqc, hqt, hqg, Oidc.grantAuthorizationCode, Oidc.grantClientCredentials,
      Oidc.grantDeviceCode, Oidc.grantRefreshToken]
  have hdisp : dispatch E (some cl) q = refreshToken E (some cl) q v := by
    simp [dispatch, hqt, hqg, Oidc.grantClientCredentials, Oidc.grantAuthorizationCode, Oidc.grantDeviceCode,
      Oidc.grantRefreshToken]
  have hgt' : StringArray.contains cl.grantTypes Oidc.grantRefreshToken = true := (contains_iff _ _).2 hgt
  have good : Good E (fun b _ => ∃ a t, b = .token a ∧ Succeeds a ∧ a.accessToken = some t ∧
      Carries t md.issuer md.subject cl.clientId md.scope md.audience rt.confirmation ∧
      (seconds (run E s ls).st.clock + 3600 ≤ md.expiresAt → a.refreshToken = none) ∧
      (md.expiresAt < seconds (run E s ls).st.clock + 3600 → ∃ t', a.refreshToken = some t' ∧
        Carries t' md.issuer md.subject cl.clientId md.scope md.audience rt.confirmation))
      (handle E (.token (some q))) 12 (run E s ls).st := by
    refine good_bind (m := 12) (n := 0) (f := fun b => Prog.ret (Resp.token b)) (good_token (n := 11) hv' hqc hcl
      (Φ := fun a _ => ∃ t, Succeeds a ∧ a.accessToken = some t ∧
        Carries t md.issuer md.subject cl.clientId md.scope md.audience rt.confirmation ∧
      (seconds (run E s ls).st.clock + 3600 ≤ md.expiresAt → a.refreshToken = none) ∧
      (md.expiresAt < seconds (run E s ls).st.clock + 3600 → ∃ t', a.refreshToken = some t' ∧
        Carries t' md.issuer md.subject cl.clientId md.scope md.audience rt.confirmation)) ?_)
      (fun a s' ⟨t, g⟩ => ⟨a, t, rfl, g⟩)
    simp only [hdisp, refreshToken, hiss, hurl, hv, hgt', if_false, not_true, Prog.call, bind_op, bind_ret, Good, exec,
      faulty, hrt, found, hact, htype, ne_eq, hmd]
    intro _ _ _ _
    have he : ¬ md.expiresAt < Device.unix (run E s ls).st.clock := by
      have : Device.unix (run E s ls).st.clock = seconds (run E s ls).st.clock := rfl
      omega
    simp only [he, hcid, not_true, if_false]
    unfold refreshTokens
    generalize hst : (run E s ls).st = st at *
    refine good_bind (m := 4) (n := 5) (good_accessToken cl _ _ _) ?_
    rintro _ s' ⟨jti, val, hval, rfl, hs'⟩
    have hx := accessToken_expiry cl md rt.confirmation st.clock jti val
    simp only [hx]
    generalize seconds st.clock + 3600 = lim
    by_cases hlt : lim > md.expiresAt
    · rw [if_pos hlt]
      refine good_bind (m := 4) (n := 1) (good_refreshToken cl _ _ s') ?_
      rintro _ s'' ⟨jti', val', hval', rfl, hs''⟩
      obtain ⟨t0, ht0⟩ := hid
      have hid'' : ∃ t, s''.tokId rt.tokenId = some t := by
        rw [hs'', hs']
        simp only [create, upd]
        split
        · exact ⟨_, rfl⟩
        split
        · exact ⟨_, rfl⟩
        · exact ⟨t0, ht0⟩
      obtain ⟨t1, ht1⟩ := hid''
      simp only [Prog.call, bind_op, bind_ret, Good, exec, faulty, Store.revoke, ht1]
      intro _ _
      exact ⟨_, rfl, rfl, ⟨⟨_, rfl, rfl, rfl, rfl, rfl, rfl⟩, rfl, rfl⟩, fun h => absurd hlt (by omega),
        fun _ => ⟨_, rfl, ⟨⟨_, rfl, rfl, rfl, rfl, rfl, rfl⟩, rfl, rfl⟩⟩⟩
    · rw [if_neg hlt]
      exact ⟨_, rfl, rfl, ⟨⟨_, rfl, rfl, rfl, rfl, rfl, rfl⟩, rfl, rfl⟩, fun _ => rfl, fun h => absurd h (by omega)⟩
  obtain ⟨b, m1, ⟨a, t, rfl, m2, m3, m4, m5, m6⟩, -⟩ := serve_good good hund hn
  exact ⟨a, t, m1, m2, m3, m4, m5, m6⟩

/-! ### Examples: the assumptions are met -/

theorem demo_registered : Registered Demo.client Demo.request := by
  refine ⟨⟨g!"authorization_code", by decide, by decide⟩, ⟨g!"code", by decide, by decide⟩,
    ⟨g!"https://app/cb", by decide, by decide⟩, ?_⟩
  intro m hm
  simp [Demo.request] at hm
  subst hm
  exact ⟨g!"query.jwt", by decide, by decide⟩

theorem demo_wellFormed : WellFormed Demo.env Demo.request := by
  obtain ⟨r, e, h, -⟩ := checkRequest_ok (E := Demo.env) (q := some Demo.request)
    (eff := { Demo.request with responseMode := some g!"query.jwt" }) (by decide +kernel)
  simp at e
  exact e ▸ h

/-- C57 (authorization): with the stores of the examples. -/
example (chs : List Choice) (h : Undisturbed chs) (hn : 3 ≤ chs.length) : ∃ a,
    Answered (run Demo.env Demo.store (serve 0 (.authorize (some Demo.authorizeReq)) chs)) 0
      (.authorize (some Demo.authorizeReq)) (.authorize a) ∧ a.code ≠ [] := by
  obtain ⟨a, _, h1, _, h2, _⟩ := C57_authorize (E := Demo.env) Demo.store [] (q := Demo.authorizeReq) rfl rfl
    (by decide) (by decide) demo_wellFormed (cl := Demo.client) rfl demo_registered h hn rfl
  exact ⟨a, h1, h2⟩

def demoAnswer : AuthorizeResp :=
  { code := g!"c0de", state := Demo.request.state, redirectUri := g!"https://app/cb", clientId := g!"app"
    expiresIn := 60, issuer := Demo.issuer }

/-- C57 (redemption): an authorization, half a minute, the redemption. -/
example (chs : List Choice) (h : Undisturbed chs) (hn : 11 ≤ chs.length) : ∃ b t,
    Answered (run Demo.env Demo.store ((Demo.authorizeRun 0 ++ [.tick (30 * second)]) ++
      serve 1 (.token (some Demo.codeReq)) chs)) 1 (.token (some Demo.codeReq)) (.token b) ∧ Succeeds b ∧
    b.refreshToken = some t := by
  have ha : ∃ a, Answered (run Demo.env Demo.store (Demo.authorizeRun 0 ++ [.tick (30 * second)])) 0
      (.authorize (some Demo.authorizeReq)) (.authorize a) ∧ a.code = g!"c0de" := by
    have hd : ((run Demo.env Demo.store (Demo.authorizeRun 0 ++ [.tick (30 * second)])).threads.map
        (fun th => (th.req, th.answer))) =
        [(.authorize (some Demo.authorizeReq), some (.authorize demoAnswer))] := by
      decide +kernel
    have h0 := congrArg (·[0]?) hd
    simp only [List.getElem?_map, List.getElem?_cons_zero, Option.map_eq_some_iff] at h0
    obtain ⟨th, h1, h2⟩ := h0
    simp only [Prod.mk.injEq] at h2
    exact ⟨_, ⟨th, h1, h2.1, h2.2⟩, rfl⟩
  obtain ⟨a, ha, hc⟩ := ha
  have hlog : ((run Demo.env Demo.store (Demo.authorizeRun 0 ++ [.tick (30 * second)])).log.all
      (fun e => decide (e.tid = 0 ∧ e.time = 100 * second))) = true := by decide +kernel
  have hclock : (run Demo.env Demo.store (Demo.authorizeRun 0 ++ [.tick (30 * second)])).st.clock = 130 * second := by
    decide +kernel
  have hlog' : ∀ e ∈ (run Demo.env Demo.store (Demo.authorizeRun 0 ++ [.tick (30 * second)])).log,
      e.tid = 0 ∧ e.time = 100 * second := fun e he => of_decide_eq_true (List.all_eq_true.1 hlog e he)
  obtain ⟨b, eff, h1, h2, _, _, h3⟩ := C57_redeem (E := Demo.env) Demo.store
    (Demo.authorizeRun 0 ++ [.tick (30 * second)]) (r := Demo.request) ha (Or.inl (by rw [hc]; decide)) rfl rfl
    (fun e he _ => by rw [hclock, (hlog' e he).2]; simp [second])
    (fun e he h => absurd (hlog' e he).1 h) (q := Demo.codeReq) (cl := Demo.client)
    (g := ⟨g!"c0de", g!"https://app/cb", Demo.verifier⟩) (by decide +kernel) ⟨g!"authorization_code", by decide, by decide⟩
    ⟨g!"https://app/cb", by decide, by decide⟩ rfl (by decide) rfl rfl rfl hc.symm (by rw [hc]; decide)
    (by rw [hc]; decide) rfl rfl (by decide) (by decide) h hn (n := 1) (by decide +kernel)
  obtain ⟨t, h4, _⟩ := h3 ((contains_fields _ _).1 (by decide)) ((contains_fields _ _).1 (by decide)) rfl
  exact ⟨b, t, h1, h2, h4⟩

/-- C57 (refresh): the refresh token of the example redemption. -/
example : ∃ rt md, (run Demo.env Demo.store Demo.happy).st.tokVal (tokenKey Demo.env Demo.issuer g!"rt") = some rt ∧
    rt.status = .active ∧ rt.tokenType = .refreshToken ∧ rt.metadata = some md ∧
    seconds (run Demo.env Demo.store Demo.happy).st.clock ≤ md.expiresAt ∧ md.clientId = Demo.client.clientId ∧
    ((run Demo.env Demo.store Demo.happy).st.tokId rt.tokenId).isSome = true := by
  have h : (((run Demo.env Demo.store Demo.happy).st.tokVal (tokenKey Demo.env Demo.issuer g!"rt")).any fun rt =>
      decide (rt.status = .active ∧ rt.tokenType = .refreshToken) && rt.metadata.any (fun md =>
        decide (seconds (run Demo.env Demo.store Demo.happy).st.clock ≤ md.expiresAt ∧
          md.clientId = Demo.client.clientId)) &&
      ((run Demo.env Demo.store Demo.happy).st.tokId rt.tokenId).isSome) = true := by decide +kernel
  revert h
  generalize run Demo.env Demo.store Demo.happy = c
  intro h
  cases hr : c.st.tokVal (tokenKey Demo.env Demo.issuer g!"rt") with
  | none => rw [hr] at h; simp at h
  | some rt =>
    rw [hr] at h
    simp only [Option.any_some, Bool.and_eq_true, decide_eq_true_eq] at h
    obtain ⟨⟨⟨g1, g2⟩, g3⟩, g4⟩ := h
    cases hm : rt.metadata with
    | none => rw [hm] at g3; simp at g3
    | some md =>
      rw [hm] at g3
      simp only [Option.any_some, decide_eq_true_eq] at g3
      exact ⟨rt, md, rfl, g1, g2, hm, g3.1, g3.2, g4⟩

end Verif.Props
