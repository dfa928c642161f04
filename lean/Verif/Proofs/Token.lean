import Verif.Proofs.Prog
import Verif.Proofs.Strings
import Verif.Model.Token

/-!
Exact description of the successful executions of the token service, for every
behaviour of stores and generators.
-/
namespace Verif.TokenSvc
open Verif.Prog Verif.Oidc Verif.StringArray Verif.Spec
open Verif.Device (unix)

/-- An answer that refuses: Go error and no token. -/
def Refused (a : TokenResp) : Prop := a.goErr = true ∧ a.accessToken = none ∧ a.refreshToken = none

/-- A refusal that tells the OAuth error. -/
def RefusedE (a : TokenResp) : Prop := Refused a ∧ a.error.isSome = true

@[simp] theorem refusedE_fail (c : ErrCode) : RefusedE (fail c) := by simp [RefusedE, Refused, fail]
@[simp] theorem refusedE_failS (c : ErrCode) (s : Str) : RefusedE (failS c s) := by
  simp [RefusedE, Refused, failS]
@[simp] theorem refused_bare : Refused bareFail := by simp [Refused, bareFail]

theorem memFold_of {l : List Str} {x : Str} (h : ¬ ¬ contains l x = true) : MemFold x l :=
  (contains_iff _ _).1 (Decidable.not_not.1 h)

/-- The calls `evs` mint the access token `t`. -/
def MintAT (client : Client) (md : TokenMeta) (cnf : Option Cnf) (t : Token) (evs : List Ev) : Prop :=
  ∃ (now : Nat) (jti v : Str), v ≠ [] ∧ t = { accessTokenSpec client md cnf now jti with value := v } ∧
    evs = [⟨.now, now⟩, ⟨.jti, jti⟩, ⟨.genAT (accessTokenSpec client md cnf now jti), .ok v⟩,
      ⟨.tkCreate md.issuer t, .ok ()⟩]

/-- The calls `evs` mint the refresh token `t`. -/
def MintRT (client : Client) (md : TokenMeta) (cnf : Option Cnf) (t : Token) (evs : List Ev) : Prop :=
  ∃ (now : Nat) (jti v : Str), v ≠ [] ∧ t = { refreshTokenSpec client md cnf now jti with value := v } ∧
    evs = [⟨.now, now⟩, ⟨.jti, jti⟩, ⟨.genRT (refreshTokenSpec client md cnf now jti), .ok v⟩,
      ⟨.tkCreate md.issuer t, .ok ()⟩]

theorem generateAccessToken_done (client : Client) (md : TokenMeta) (cnf : Option Cnf) (acc : List Ev) :
    Done (fun tr res => ∀ t, res = some t → ∃ evs, tr = acc ++ evs ∧ MintAT client md cnf t evs)
      (generateAccessToken client md cnf) acc := by
  unfold generateAccessToken
  simp only [Prog.call, bind_op, bind_ret, pure_eq, Done]
  intro now jti
  rintro (_ | v)
  · simp [Done]
  · simp only
    split
    · simp [Done]
    · simp only [Done]
      rintro (_ | u)
      · simp [Done]
      · simp only [Done, Option.some.injEq]
        rintro t rfl
        exact ⟨_, by simp, now, jti, v, by assumption, rfl, rfl⟩

theorem generateRefreshToken_done (client : Client) (md : TokenMeta) (cnf : Option Cnf) (acc : List Ev) :
    Done (fun tr res => ∀ t, res = some t → ∃ evs, tr = acc ++ evs ∧ MintRT client md cnf t evs)
      (generateRefreshToken client md cnf) acc := by
  unfold generateRefreshToken
  simp only [Prog.call, bind_op, bind_ret, pure_eq, Done]
  intro now jti
  rintro (_ | v)
  · simp [Done]
  · simp only
    split
    · simp [Done]
    · simp only [Done]
      rintro (_ | u)
      · simp [Done]
      · simp only [Done, Option.some.injEq]
        rintro t rfl
        exact ⟨_, by simp, now, jti, v, by assumption, rfl, rfl⟩

/-! ### Authorization code -/

/-- Successful end of the code grant. -/
def CodeTokens (client : Client) (req : TokenReq) (subject : Str) (ar : AuthzRequest) (a : TokenResp)
    (evs : List Ev) : Prop :=
  let tm : TokenMeta := { issuer := req.issuer, subject := subject, audience := ar.audience, scope := ar.scope }
  (¬ HasWord g!"openid" ar.scope ∧ a = {} ∧ evs = []) ∨
  (HasWord g!"openid" ar.scope ∧ ¬ HasWord g!"offline_access" ar.scope ∧ ∃ at_, a = { accessToken := some at_ } ∧
    MintAT client tm req.tokenConfirmation at_ evs) ∨
  (HasWord g!"openid" ar.scope ∧ HasWord g!"offline_access" ar.scope ∧ ∃ at_ rt e1 e2,
    a = { accessToken := some at_, refreshToken := some rt } ∧ evs = e1 ++ e2 ∧
    MintAT client tm req.tokenConfirmation at_ e1 ∧ MintRT client tm req.tokenConfirmation rt e2)

theorem codeTokens_done (client : Client) (req : TokenReq) (subject : Str) (ar : AuthzRequest) (acc : List Ev) :
    Done (fun tr a => RefusedE a ∨ ∃ evs, tr = acc ++ evs ∧ CodeTokens client req subject ar a evs)
      (codeTokens client req subject ar) acc := by
  unfold codeTokens
  simp only
  split
  · rename_i ho
    have ho' : HasWord g!"openid" ar.scope := (contains_fields _ _).1 ho
    rw [done_bind]
    refine done_mono (generateAccessToken_done client _ _ acc) ?_
    rintro tr res h
    cases res with
    | none => left; simp
    | some at_ =>
      obtain ⟨evs, htr, hm⟩ := h at_ rfl
      have hcnf : at_.confirmation = req.tokenConfirmation := by
        obtain ⟨_, _, _, _, ht, _⟩ := hm; rw [ht]; rfl
      simp only
      split
      · rename_i hoff
        have hoff' : HasWord g!"offline_access" ar.scope := (contains_fields _ _).1 hoff
        rw [done_bind]
        refine done_mono (generateRefreshToken_done client _ _ tr) ?_
        rintro tr2 res2 h2
        cases res2 with
        | none => left; simp
        | some rt =>
          obtain ⟨evs2, htr2, hm2⟩ := h2 rt rfl
          right
          refine ⟨evs ++ evs2, by rw [htr2, htr]; simp, Or.inr (Or.inr ⟨ho', hoff', at_, rt, evs, evs2, rfl, rfl, hm, ?_⟩)⟩
          rw [hcnf] at hm2; exact hm2
      · rename_i hoff
        right
        exact ⟨evs, htr, Or.inr (Or.inl ⟨ho', fun h => hoff ((contains_fields _ _).2 h), at_, rfl, hm⟩)⟩
  · rename_i ho
    right
    exact ⟨[], by simp, Or.inl ⟨fun h => ho ((contains_fields _ _).2 h), rfl, rfl⟩⟩

/-- The checks passed by a code redemption. -/
structure CodeOk (E : Env) (client : Client) (g : GrantCode) (ar : AuthzRequest) : Prop where
  redirect : ar.redirectUri = g.redirectUri
  registered : MemFold g.redirectUri client.redirectUris
  method : ar.codeChallengeMethod = g!"S256"
  pkce : Go.b64 (E.sha256 g.codeVerifier) = ar.codeChallenge

theorem codeChecks_cases (E : Env) (client : Client) (g : GrantCode) (ar : AuthzRequest) :
    (∃ r, codeChecks E client g ar = some r ∧ RefusedE r) ∨
    (codeChecks E client g ar = none ∧ CodeOk E client g ar) := by
  unfold codeChecks
  split
  · left; exact ⟨_, rfl, by simp⟩
  split
  · left; exact ⟨_, rfl, by simp⟩
  split
  · split
    · left; exact ⟨_, rfl, by simp⟩
    · right
      rename_i h1 h2 h3 h4
      exact ⟨rfl, ⟨by simpa using h1, memFold_of h2, h3, by simpa using h4⟩⟩
  · left; exact ⟨_, rfl, by simp⟩

/-- A successful code redemption. -/
structure CodeGrant (E : Env) (client : Client) (req : TokenReq) (g : GrantCode) (a : TokenResp)
    (evs : List Ev) (sess : CodeSession) (ar : AuthzRequest) (mint : List Ev) : Prop where
  issuer : req.issuer ≠ []
  grant : MemFold g!"authorization_code" client.grantTypes
  minLen : 43 ≤ g.codeVerifier.length
  maxLen : g.codeVerifier.length ≤ 128
  request : sess.request = some ar
  checks : CodeOk E client g ar
  tokens : CodeTokens client req sess.subject ar a mint
  trace : evs = ⟨.csGet req.issuer g.code, .ok (some sess)⟩ :: ⟨.csDel req.issuer g.code, .ok ()⟩ :: mint

theorem authorizationCode_done (E : Env) (client : Option Client) (req : TokenReq) (g : GrantCode) (acc : List Ev) :
    Done (fun tr a => RefusedE a ∨ ∃ cl evs sess ar mint, client = some cl ∧ tr = acc ++ evs ∧
      CodeGrant E cl req g a evs sess ar mint)
      (authorizationCode E client req g) acc := by
  unfold authorizationCode
  cases client with
  | none => left; simp
  | some cl =>
    simp only
    split; · left; simp
    split; · left; simp
    split; · left; simp
    split; · left; simp
    split; · left; simp
    split; · left; simp
    split; · left; simp
    rename_i h1 h2 h3 h4 h5 h6 h7
    simp only [Prog.call, bind_op, bind_ret, pure_eq, Done]
    rintro ((_ | _) | (_ | sess))
    · left; simp
    · left; simp
    · trivial
    · simp only
      cases hr : sess.request with
      | none => left; simp
      | some ar =>
        simp only [Done]
        rintro (_ | u)
        · left; simp
        · simp only
          rcases codeChecks_cases E cl g ar with ⟨r, hc, hr'⟩ | ⟨hc, hok⟩
          · rw [hc]; left; exact hr'
          · rw [hc]
            simp only
            refine done_mono (codeTokens_done cl req sess.subject ar _) ?_
            rintro tr a (h | ⟨evs, htr, ht⟩)
            · left; exact h
            · right
              refine ⟨cl, _, sess, ar, evs, rfl, ?_, h1, memFold_of h3, by omega, by omega, hr, hok, ht, rfl⟩
              rw [htr]; simp

/-! ### Client credentials -/

structure CCGrant (client : Client) (req : TokenReq) (a : TokenResp) (evs : List Ev) (at_ : Token) : Prop where
  issuer : req.issuer ≠ []
  grant : MemFold g!"client_credentials" client.grantTypes
  type : client.clientType = .confidential ∨ client.clientType = .credentialed
  answer : a = { accessToken := some at_ }
  mint : MintAT client { issuer := req.issuer, scope := req.scope.getD [], audience := req.audience.getD [] }
    req.tokenConfirmation at_ evs

theorem clientCredentials_done (E : Env) (client : Option Client) (req : TokenReq) (acc : List Ev) :
    Done (fun tr a => RefusedE a ∨ ∃ cl evs at_, client = some cl ∧ tr = acc ++ evs ∧ CCGrant cl req a evs at_)
      (clientCredentials E client req) acc := by
  unfold clientCredentials
  cases client with
  | none => left; simp
  | some cl =>
    simp only
    split; · left; simp
    split; · left; simp
    split; · left; simp
    split; · left; simp
    rename_i h1 h2 h3 h4
    rw [done_bind]
    refine done_mono (generateAccessToken_done cl _ _ acc) ?_
    rintro tr res h
    cases res with
    | none => left; simp
    | some at_ =>
      obtain ⟨evs, htr, hm⟩ := h at_ rfl
      right
      exact ⟨cl, evs, at_, rfl, htr, h1, memFold_of h4,
        by simpa [Classical.or_iff_not_imp_left] using h3, rfl, hm⟩

/-! ### Device code -/

/-- Successful end of the device grant. -/
def DeviceTokens (client : Client) (req : TokenReq) (subject : Str) (scope : Option Str) (a : TokenResp)
    (evs : List Ev) : Prop :=
  let tm : TokenMeta := { issuer := req.issuer, subject := subject, scope := scope.getD [] }
  (¬ HasWord g!"offline_access" (scope.getD []) ∧ ∃ at_, a = { accessToken := some at_ } ∧
    MintAT client tm req.tokenConfirmation at_ evs) ∨
  (HasWord g!"offline_access" (scope.getD []) ∧ ∃ at_ rt e1 e2,
    a = { accessToken := some at_, refreshToken := some rt } ∧ evs = e1 ++ e2 ∧
    MintAT client tm req.tokenConfirmation at_ e1 ∧ MintRT client tm req.tokenConfirmation rt e2)

theorem deviceTokens_done (client : Client) (req : TokenReq) (subject : Str) (scope : Option Str) (acc : List Ev) :
    Done (fun tr a => RefusedE a ∨ ∃ evs, tr = acc ++ evs ∧ DeviceTokens client req subject scope a evs)
      (deviceTokens client req subject scope) acc := by
  unfold deviceTokens
  simp only [done_bind]
  refine done_mono (generateAccessToken_done client _ _ acc) ?_
  rintro tr res h
  cases res with
  | none => left; simp
  | some at_ =>
    obtain ⟨evs, htr, hm⟩ := h at_ rfl
    have hcnf : at_.confirmation = req.tokenConfirmation := by
      obtain ⟨_, _, _, _, ht, _⟩ := hm; rw [ht]; rfl
    cases scope with
    | none =>
      right
      refine ⟨evs, htr, Or.inl ⟨?_, at_, rfl, hm⟩⟩
      rintro ⟨v, ⟨hv, _, l, r, e, _⟩, _⟩
      simp at e
      exact hv (Go.chunks_eq_nil.1 e.2.1)
    | some sc =>
      simp only
      split
      · rename_i hoff
        have hoff' : HasWord g!"offline_access" sc := (contains_fields _ _).1 hoff
        rw [done_bind]
        refine done_mono (generateRefreshToken_done client _ _ tr) ?_
        rintro tr2 res2 h2
        cases res2 with
        | none => left; simp
        | some rt =>
          obtain ⟨evs2, htr2, hm2⟩ := h2 rt rfl
          right
          refine ⟨evs ++ evs2, by rw [htr2, htr]; simp, Or.inr ⟨hoff', at_, rt, evs, evs2, rfl, rfl, hm, ?_⟩⟩
          rw [hcnf] at hm2; exact hm2
      · rename_i hoff
        right
        exact ⟨evs, htr, Or.inl ⟨fun h => hoff ((contains_fields _ _).2 h), at_, rfl, hm⟩⟩

structure DeviceGrant (client : Client) (req : TokenReq) (dc : Str) (a : TokenResp) (evs : List Ev)
    (ref : Nat) (session : DeviceSession) (dreq : DeviceAuthzReq) (subject : Str) (now : Nat) (mint : List Ev) : Prop where
  issuer : req.issuer ≠ []
  grant : MemFold g!"urn:ietf:params:oauth:grant-type:device_code" client.grantTypes
  code : dc ≠ []
  request : session.request = some dreq
  sameClient : dreq.clientId = client.clientId
  unexpired : unix now ≤ session.expiresAt
  status : session.status = .validated
  approvedBy : session.subject = some subject
  tokens : DeviceTokens client req subject session.scope a mint
  trace : evs = ⟨.dsGetDev req.issuer dc, .ok (some (ref, session))⟩ :: ⟨.now, now⟩ :: mint

theorem deviceCode_done (E : Env) (client : Option Client) (req : TokenReq) (dc : Str) (acc : List Ev) :
    Done (fun tr a => RefusedE a ∨ ∃ cl evs ref session dreq subject now mint, client = some cl ∧ tr = acc ++ evs ∧
      DeviceGrant cl req dc a evs ref session dreq subject now mint)
      (deviceCode E client req dc) acc := by
  unfold deviceCode
  cases client with
  | none => left; simp
  | some cl =>
    simp only
    split; · left; simp
    split; · left; simp
    split; · left; simp
    split; · left; simp
    rename_i h1 h2 h3 h4
    simp only [Prog.call, bind_op, bind_ret, pure_eq, Done]
    rintro ((_ | _) | (_ | ⟨ref, session⟩))
    · left; simp
    · left; simp
    · left; simp
    · simp only
      cases hr : session.request with
      | none => left; simp
      | some dreq =>
        simp only
        split; · left; simp
        split; · left; simp
        rename_i h5 h6
        simp only [Done]
        intro now
        split; · left; simp
        split; · left; simp
        split; · left; simp
        rename_i h7 h8 h9
        cases hs : session.subject with
        | none => left; simp
        | some subject =>
          simp only
          refine done_mono (deviceTokens_done cl req subject session.scope _) ?_
          rintro tr a (h | ⟨evs, htr, ht⟩)
          · left; exact h
          · right
            refine ⟨cl, _, ref, session, dreq, subject, now, evs, rfl, ?_, h1,
              memFold_of h3, h4, hr, by simpa using h6, by omega,
              by simpa using h9, hs, ht, rfl⟩
            rw [htr]; simp

/-! ### Refresh token -/

/-- Successful end of the refresh grant. -/
def RefreshTokens (client : Client) (req : TokenReq) (rt : Token) (md : TokenMeta) (a : TokenResp)
    (evs : List Ev) : Prop :=
  (∃ at_ mda, at_.metadata = some mda ∧ mda.expiresAt ≤ md.expiresAt ∧ a = { accessToken := some at_ } ∧
    MintAT client md rt.confirmation at_ evs) ∨
  (∃ at_ mda new e1 e2, at_.metadata = some mda ∧ md.expiresAt < mda.expiresAt ∧
    a = { accessToken := some at_, refreshToken := some new } ∧
    MintAT client md rt.confirmation at_ e1 ∧ MintRT client md rt.confirmation new e2 ∧
    evs = e1 ++ e2 ++ [⟨.tkRevoke req.issuer rt.tokenId, .ok ()⟩])

theorem refreshTokens_done (client : Client) (req : TokenReq) (rt : Token) (md : TokenMeta) (acc : List Ev) :
    Done (fun tr a => RefusedE a ∨ ∃ evs, tr = acc ++ evs ∧ RefreshTokens client req rt md a evs)
      (refreshTokens client req rt md) acc := by
  unfold refreshTokens
  simp only [done_bind]
  refine done_mono (generateAccessToken_done client _ _ acc) ?_
  rintro tr res h
  cases res with
  | none => left; simp
  | some at_ =>
    obtain ⟨evs, htr, hm⟩ := h at_ rfl
    have hcnf : at_.confirmation = rt.confirmation := by
      obtain ⟨_, _, _, _, ht, _⟩ := hm; rw [ht]; rfl
    have hmd : ∃ mda, at_.metadata = some mda := by
      obtain ⟨_, _, _, _, ht, _⟩ := hm; rw [ht]; exact ⟨_, rfl⟩
    obtain ⟨mda, hmd⟩ := hmd
    simp only
    split
    · rename_i hexp
      rw [hmd] at hexp
      rw [done_bind]
      refine done_mono (generateRefreshToken_done client _ _ tr) ?_
      rintro tr2 res2 h2
      cases res2 with
      | none => left; simp
      | some new =>
        obtain ⟨evs2, htr2, hm2⟩ := h2 new rfl
        simp only [Prog.call, bind_op, bind_ret, pure_eq, Done]
        rintro (_ | u)
        · left; simp
        · right
          rw [hcnf] at hm2
          refine ⟨_, ?_, Or.inr ⟨at_, mda, new, evs, evs2, hmd, by simpa using hexp, rfl, hm, hm2, rfl⟩⟩
          rw [htr2, htr]; simp
    · rename_i hexp
      rw [hmd] at hexp
      right
      exact ⟨evs, htr, Or.inl ⟨at_, mda, hmd, by simpa using hexp, rfl, hm⟩⟩

structure RefreshGrant (client : Client) (req : TokenReq) (rtv : Str) (a : TokenResp) (evs : List Ev)
    (rt : Token) (md : TokenMeta) (now : Nat) (mint : List Ev) : Prop where
  issuer : req.issuer ≠ []
  grant : MemFold g!"refresh_token" client.grantTypes
  value : rtv ≠ []
  status : rt.status = .active
  type : rt.tokenType = .refreshToken
  metadata : rt.metadata = some md
  unexpired : unix now ≤ md.expiresAt
  owner : md.clientId = client.clientId
  tokens : RefreshTokens client req rt md a mint
  trace : evs = ⟨.tkGetVal req.issuer rtv, .ok (some rt)⟩ :: ⟨.now, now⟩ :: mint

theorem refreshToken_done (E : Env) (client : Option Client) (req : TokenReq) (rtv : Str) (acc : List Ev) :
    Done (fun tr a => RefusedE a ∨ ∃ cl evs rt md now mint, client = some cl ∧ tr = acc ++ evs ∧
      RefreshGrant cl req rtv a evs rt md now mint)
      (refreshToken E client req rtv) acc := by
  unfold refreshToken
  cases client with
  | none => left; simp
  | some cl =>
    simp only
    split; · left; simp
    split; · left; simp
    split; · left; simp
    split; · left; simp
    rename_i h1 h2 h3 h4
    simp only [Prog.call, bind_op, bind_ret, pure_eq, Done]
    rintro ((_ | _) | (_ | rt))
    · left; simp
    · left; simp
    · trivial
    · simp only
      split; · left; simp
      split; · left; simp
      rename_i h5 h6
      cases hm : rt.metadata with
      | none => left; simp
      | some md =>
        simp only [Done]
        intro now
        split; · left; simp
        split; · left; simp
        rename_i h7 h8
        refine done_mono (refreshTokens_done cl req rt md _) ?_
        rintro tr a (h | ⟨evs, htr, ht⟩)
        · left; exact h
        · right
          refine ⟨cl, _, rt, md, now, evs, rfl, ?_, h1, memFold_of h4, h3,
            by simpa using h5, by simpa using h6, hm, by omega, by simpa using h8, ht, rfl⟩
          rw [htr]; simp

/-! ### Token exchange -/

/-- Successful token exchange. -/
structure ExchangeGrant (client : Client) (req : TokenReq) (g : GrantExchange) (a : TokenResp) (evs : List Ev)
    (st : Token) (md : TokenMeta) (now now2 : Nat) (jti v aud : Str) (t : Token) (look : List Ev) : Prop where
  issuer : req.issuer ≠ []
  grant : MemFold g!"urn:ietf:params:oauth:grant-type:token-exchange" client.grantTypes
  value : g.subjectToken ≠ []
  kind : g.subjectTokenType = g!"urn:ietf:params:oauth:token-type:access_token"
  status : st.status = .active
  type : st.tokenType = .accessToken
  metadata : st.metadata = some md
  unexpired : unix now ≤ md.expiresAt
  nonempty : v ≠ []
  token : t = { exchangedSpec client st md (req.scope.getD md.scope) now2 jti aud with value := v }
  audience : (req.audience = none ∧ aud = [] ∧ look = []) ∨
    ∃ u res, req.audience = some u ∧ look = [⟨.resourcesGet u, .ok (some res)⟩] ∧ aud = res.urn
  answer : a = { issuer := md.issuer, accessToken := some t,
                 issuedTokenType := some g!"urn:ietf:params:oauth:token-type:access_token",
                 scope := if md.scope ≠ req.scope.getD md.scope then some (req.scope.getD md.scope) else none }
  trace : evs = [⟨.tkGetVal req.issuer g.subjectToken, .ok (some st)⟩, ⟨.now, now⟩, ⟨.now, now2⟩, ⟨.jti, jti⟩] ++
    look ++ [⟨.genAT (exchangedSpec client st md (req.scope.getD md.scope) now2 jti aud), .ok v⟩,
      ⟨.tkCreate req.issuer t, .ok ()⟩]

theorem exchangeFinish_done (req : TokenReq) (md : TokenMeta) (scope : Str) (spec : Token) (acc : List Ev) :
    Done (fun tr a => Refused a ∨ ∃ v, v ≠ [] ∧
      tr = acc ++ [⟨.genAT spec, .ok v⟩, ⟨.tkCreate req.issuer { spec with value := v }, .ok ()⟩] ∧
      a = { issuer := md.issuer, accessToken := some { spec with value := v },
            issuedTokenType := some exchangeAccessToken,
            scope := if md.scope ≠ scope then some scope else none })
      (exchangeFinish req md scope spec) acc := by
  unfold exchangeFinish
  simp only [Prog.call, bind_op, bind_ret, pure_eq, Done]
  rintro (_ | v)
  · left; simp
  · simp only
    by_cases hv : v = []
    · rw [if_pos hv]; left; simp
    · rw [if_neg hv]
      simp only [Done]
      rintro (_ | u)
      · left; simp
      · right; exact ⟨v, by assumption, by simp, rfl⟩

theorem tokenExchange_done (E : Env) (client : Option Client) (req : TokenReq) (g : GrantExchange) (acc : List Ev) :
    Done (fun tr a => Refused a ∨ ∃ cl evs st md now now2 jti v aud t look, client = some cl ∧ tr = acc ++ evs ∧
      ExchangeGrant cl req g a evs st md now now2 jti v aud t look)
      (tokenExchange E client req g) acc := by
  have hf : ∀ c, Refused (fail c) := fun c => (refusedE_fail c).1
  unfold tokenExchange
  cases client with
  | none => left; simp [hf]
  | some cl =>
    simp only
    split; · left; simp [hf]
    split; · left; simp [hf]
    split; · left; simp [hf]
    split; · left; simp [hf]
    split; · left; simp [hf]
    split; · left; simp [hf]
    rename_i h1 h2 h3 h4 h5 h6
    simp only [Prog.call, bind_op, bind_ret, pure_eq, Done]
    rintro ((_ | _) | (_ | st))
    · left; simp [hf]
    · left; simp [hf]
    · trivial
    · simp only
      split; · left; simp [hf]
      split; · left; simp [hf]
      rename_i h7 h8
      cases hm : st.metadata with
      | none => left; simp [hf]
      | some md =>
        simp only [Done]
        intro now
        split; · left; simp [hf]
        rename_i h9
        unfold exchangeBuild
        simp only [Prog.call, bind_op, bind_ret, pure_eq, Done]
        intro now2 jti
        cases ha : req.audience with
        | none =>
          simp only
          refine done_mono (exchangeFinish_done req md _ _ _) ?_
          rintro tr a (h | ⟨v, hv, htr, hans⟩)
          · left; exact h
          · right
            refine ⟨cl, _, st, md, now, now2, jti, v, [], _, [], rfl, ?_, h1,
              memFold_of h5, h4, Decidable.not_not.1 h6, by simpa using h7,
              by simpa using h8, hm, by omega, hv, rfl, Or.inl ⟨ha, rfl, rfl⟩, hans, rfl⟩
            rw [htr]; simp
        | some u =>
          simp only [Done]
          rintro ((_ | _) | (_ | res))
          · left; simp
          · trivial
          · trivial
          · simp only
            refine done_mono (exchangeFinish_done req md _ _ _) ?_
            rintro tr a (h | ⟨v, hv, htr, hans⟩)
            · left; exact h
            · right
              refine ⟨cl, _, st, md, now, now2, jti, v, res.urn, _, [_], rfl, ?_, h1,
                memFold_of h5, h4, Decidable.not_not.1 h6, by simpa using h7,
                by simpa using h8, hm, by omega, hv, rfl, Or.inr ⟨u, res, ha, rfl, rfl⟩, hans, rfl⟩
              rw [htr]; simp

/-! ### The endpoint -/

/-- A successful token request: which grant, and how. -/
inductive Success (E : Env) (req : TokenReq) (client : Client) (a : TokenResp) (evs : List Ev) : Prop
  | code (g : GrantCode) (sess : CodeSession) (ar : AuthzRequest) (mint : List Ev)
      (hg : req.grant = some (.authorizationCode g)) (ht : req.grantType = g!"authorization_code")
      (h : CodeGrant E client req g a evs sess ar mint)
  | cc (at_ : Token) (hg : req.grant = some .clientCredentials) (ht : req.grantType = g!"client_credentials")
      (h : CCGrant client req a evs at_)
  | device (dc : Str) (ref : Nat) (session : DeviceSession) (dreq : DeviceAuthzReq) (subject : Str) (now : Nat)
      (mint : List Ev) (hg : req.grant = some (.deviceCode dc))
      (ht : req.grantType = g!"urn:ietf:params:oauth:grant-type:device_code")
      (h : DeviceGrant client req dc a evs ref session dreq subject now mint)
  | refresh (v : Str) (rt : Token) (md : TokenMeta) (now : Nat) (mint : List Ev)
      (hg : req.grant = some (.refreshToken v)) (ht : req.grantType = g!"refresh_token")
      (h : RefreshGrant client req v a evs rt md now mint)
  | exchange (g : GrantExchange) (st : Token) (md : TokenMeta) (now now2 : Nat) (jti v aud : Str) (t : Token)
      (look : List Ev) (hg : req.grant = some (.tokenExchange g))
      (ht : req.grantType = g!"urn:ietf:params:oauth:grant-type:token-exchange")
      (h : ExchangeGrant client req g a evs st md now now2 jti v aud t look)

theorem dispatch_done (E : Env) (client : Option Client) (req : TokenReq) (acc : List Ev) :
    Done (fun tr a => (Refused a ∧ (a.error.isSome = true ∨ ∃ g, req.grant = some (.tokenExchange g))) ∨
      ∃ cl evs, client = some cl ∧ tr = acc ++ evs ∧ Success E req cl a evs)
      (dispatch E client req) acc := by
  have hf : ∀ c, Refused (fail c) ∧ ((fail c).error.isSome = true ∨ ∃ g, req.grant = some (.tokenExchange g)) :=
    fun c => ⟨(refusedE_fail c).1, Or.inl (refusedE_fail c).2⟩
  unfold dispatch
  split
  · rename_i ht
    split
    · rename_i hg
      refine done_mono (clientCredentials_done E client req acc) ?_
      rintro tr a (h | ⟨cl, evs, at_, h1, h2, h3⟩)
      · exact Or.inl ⟨h.1, Or.inl h.2⟩
      · exact Or.inr ⟨cl, evs, h1, h2, .cc at_ hg ht h3⟩
    · exact Or.inl (hf _)
  split
  · rename_i ht
    split
    · rename_i g hg
      refine done_mono (authorizationCode_done E client req g acc) ?_
      rintro tr a (h | ⟨cl, evs, sess, ar, mint, h1, h2, h3⟩)
      · exact Or.inl ⟨h.1, Or.inl h.2⟩
      · exact Or.inr ⟨cl, evs, h1, h2, .code g sess ar mint hg ht h3⟩
    · exact Or.inl (hf _)
  split
  · rename_i ht
    split
    · rename_i dc hg
      refine done_mono (deviceCode_done E client req dc acc) ?_
      rintro tr a (h | ⟨cl, evs, ref, session, dreq, subject, now, mint, h1, h2, h3⟩)
      · exact Or.inl ⟨h.1, Or.inl h.2⟩
      · exact Or.inr ⟨cl, evs, h1, h2, .device dc ref session dreq subject now mint hg ht h3⟩
    · exact Or.inl (hf _)
  split
  · rename_i ht
    split
    · rename_i v hg
      refine done_mono (refreshToken_done E client req v acc) ?_
      rintro tr a (h | ⟨cl, evs, rt, md, now, mint, h1, h2, h3⟩)
      · exact Or.inl ⟨h.1, Or.inl h.2⟩
      · exact Or.inr ⟨cl, evs, h1, h2, .refresh v rt md now mint hg ht h3⟩
    · exact Or.inl (hf _)
  split
  · rename_i ht
    split
    · rename_i g hg
      refine done_mono (tokenExchange_done E client req g acc) ?_
      rintro tr a (h | ⟨cl, evs, st, md, now, now2, jti, v, aud, t, look, h1, h2, h3⟩)
      · exact Or.inl ⟨h, Or.inr ⟨g, hg⟩⟩
      · exact Or.inr ⟨cl, evs, h1, h2, .exchange g st md now now2 jti v aud t look hg ht h3⟩
    · exact Or.inl (hf _)
  · exact Or.inl (hf _)

/-- The token endpoint either refuses, or succeeds by one of the grants on the
client as answered by the client store. -/
theorem token_done (E : Env) (req : Option TokenReq) :
    Done (fun tr a =>
      (Refused a ∧ (a.error.isSome = true ∨ ∃ q g, req = some q ∧ q.grant = some (.tokenExchange g))) ∨
      ∃ q c cl evs, req = some q ∧ q.client = some c ∧
        tr = ⟨.clientsGet c.clientId, .ok (some cl)⟩ :: evs ∧ Success E q cl a evs)
      (token E req) [] := by
  unfold token
  cases req with
  | none => left; exact ⟨(refusedE_fail _).1, Or.inl (refusedE_fail _).2⟩
  | some q =>
    cases hv : validateRequest (some q) with
    | some e => left; exact ⟨(refusedE_fail _).1, Or.inl (refusedE_fail _).2⟩
    | none =>
      simp only
      cases hc : q.client with
      | none => trivial
      | some c =>
        simp only [Prog.call, bind_op, bind_ret, pure_eq, Done]
        rintro ((_ | _) | client)
        · left; exact ⟨(refusedE_fail _).1, Or.inl (refusedE_fail _).2⟩
        · left; exact ⟨(refusedE_fail _).1, Or.inl (refusedE_fail _).2⟩
        · refine done_mono (dispatch_done E client q _) ?_
          rintro tr a (⟨h, h'⟩ | ⟨cl, evs, h1, h2, h3⟩)
          · left; exact ⟨h, h'.imp id fun ⟨g, h⟩ => ⟨q, g, rfl, h⟩⟩
          · right; subst h1; exact ⟨q, c, cl, evs, rfl, hc, by simpa using h2, h3⟩

end Verif.TokenSvc
