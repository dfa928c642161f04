import Verif.Model.TokenGen
import Verif.Proofs.Tokens
import Verif.Proofs.Demo

/-! C32 (signed introspection answers), C50 (claim generators) and C61 (minted tokens
against the policy of the signed-token generators). -/
namespace Verif.Props
open Verif.Prog Verif.Spec Verif.TokenGen

/-- Non-empty and made of printable ASCII characters. -/
def Printable (s : Str) : Prop := s ≠ [] ∧ ∀ b ∈ s, 0x20 ≤ b ∧ b ≤ 0x7E

/-- The lifetime rules: `iat ≤ now`, `iat ≤ nbf ≤ exp ≤ iat + d`, nothing zero. -/
structure Lifetime (d now iat nbf exp : Nat) : Prop where
  issued : 0 < iat ∧ iat ≤ now
  notBefore : iat ≤ nbf ∧ nbf ≤ exp
  expires : iat ≤ exp ∧ exp ≤ iat + d

/-- What the access and refresh token generators demand. -/
structure TokenPolicy (isURL : Str → Bool) (d now : Nat) (md : TokenMeta) : Prop where
  audience : Printable md.audience
  issuer : md.issuer ≠ [] ∧ isURL md.issuer = true
  subject : Printable md.subject
  clientId : Printable md.clientId
  scope : Printable md.scope
  times : Lifetime d now md.issuedAt md.notBefore md.expiresAt

theorem printable_iff {s : Str} : printable s = true ↔ Printable s := by
  simp [printable, Printable]

theorem within_iff {lo hi n : Nat} : within lo hi n = true ↔ n ≠ 0 ∧ lo ≤ n ∧ n ≤ hi := by
  simp [within, and_assoc]

/-- The wrapped maximum is at most the intended one, and equal to it without overflow. -/
theorem maxExpiration_le (iat d : Nat) : maxExpiration iat d ≤ iat + d := Nat.mod_le _ _

theorem maxExpiration_eq {iat d : Nat} (h : iat + d < 2 ^ 64) : maxExpiration iat d = iat + d := Nat.mod_eq_of_lt h

theorem validateMeta_policy {isURL : Str → Bool} {d now : Nat} {md : TokenMeta}
    (h : validateMeta isURL d now md = true) : TokenPolicy isURL d now md := by
  simp only [validateMeta, Bool.and_eq_true, printable_iff, within_iff, Bool.not_eq_true', List.isEmpty_eq_false_iff] at h
  obtain ⟨⟨⟨⟨⟨⟨⟨⟨h1, h2⟩, h3⟩, h4⟩, h5⟩, h6⟩, h7⟩, h8⟩, h9⟩ := h
  exact ⟨h1, ⟨h3, h2⟩, h4, h5, h6, ⟨⟨Nat.pos_of_ne_zero h7.1, h7.2.2⟩, h8.2,
    ⟨h9.2.1, Nat.le_trans h9.2.2 (maxExpiration_le _ _)⟩⟩⟩

theorem policy_validateMeta {isURL : Str → Bool} {d now : Nat} {md : TokenMeta} (hb : now + d < 2 ^ 64)
    (h : TokenPolicy isURL d now md) : validateMeta isURL d now md = true := by
  obtain ⟨h1, ⟨h3, h2⟩, h4, h5, h6, ⟨⟨t1, t2⟩, ⟨t3, t4⟩, t5, t6⟩⟩ := h
  have : maxExpiration md.issuedAt d = md.issuedAt + d := maxExpiration_eq (by omega)
  simp only [validateMeta, Bool.and_eq_true, printable_iff, within_iff, Bool.not_eq_true', List.isEmpty_eq_false_iff, this]
  exact ⟨⟨⟨⟨⟨⟨⟨⟨h1, h2⟩, h3⟩, h4⟩, h5⟩, h6⟩, ⟨by omega, by omega, t2⟩⟩, ⟨by omega, t3, t4⟩⟩, ⟨by omega, t5, t6⟩⟩

/-- The claims of an access token. -/
def accessClaims (t : Token) (md : TokenMeta) : Claims :=
  { iss := md.issuer, sub := md.subject, aud := md.audience, exp := md.expiresAt, nbf := md.notBefore,
    iat := md.issuedAt, jti := t.tokenId, clientId := md.clientId, scope := md.scope, cnf := t.confirmation }

private theorem exec_op_now {α : Type} {k : Nat → Prog α} {tr : List Ev} {a : α}
    (h : Exec (.op .now k) tr (.done a)) : ∃ now tr', tr = ⟨.now, now⟩ :: tr' ∧ Exec (k now) tr' (.done a) := by
  cases h with
  | step _ _ now tr' _ h' => exact ⟨now, tr', rfl, h'⟩

private theorem exec_ret {α : Type} {x a : α} {tr : List Ev} (h : Exec (.ret x) tr (.done a)) : tr = [] ∧ a = x := by
  cases h; exact ⟨rfl, rfl⟩

/-- **C50** (access tokens). A signed access token is produced only for a specification
meeting the policy at the time of generation, and its payload is that specification. -/
theorem C50_access_token (isURL : Str → Bool) (ser : Option (Claims → Option Str)) (t : Option Token) (tr : List Ev)
    (raw : Str) (h : Exec (accessToken isURL ser t) tr (.done (some raw))) :
    ∃ s tok md now, ser = some s ∧ t = some tok ∧ tok.metadata = some md ∧ tr = [⟨.now, now⟩] ∧ tok.tokenId ≠ [] ∧
      TokenPolicy isURL 7200 (seconds now) md ∧ s (accessClaims tok md) = some raw := by
  unfold accessToken at h
  split at h
  · obtain ⟨_, h⟩ := exec_ret h; simp at h
  · obtain ⟨_, h⟩ := exec_ret h; simp at h
  · rename_i s tok
    split at h
    · obtain ⟨_, h⟩ := exec_ret h; simp at h
    · rename_i hid
      split at h
      · obtain ⟨_, h⟩ := exec_ret h; simp at h
      · rename_i md hmd
        simp only [Prog.call, bind_op, bind_ret, pure_eq] at h
        obtain ⟨now, tr', rfl, h'⟩ := exec_op_now h
        clear h
        have h := h'
        clear h'
        split at h
        · rename_i hv
          obtain ⟨rfl, hr⟩ := exec_ret h
          exact ⟨s, tok, md, now, rfl, rfl, hmd, rfl, hid, validateMeta_policy hv, hr.symm⟩
        · obtain ⟨_, h⟩ := exec_ret h; simp at h

/-- **C50** (access tokens, converse). Every specification meeting the policy is signed. -/
theorem C50_access_token_complete (isURL : Str → Bool) (s : Claims → Option Str) (tok : Token) (md : TokenMeta)
    (now : Nat) (hid : tok.tokenId ≠ []) (hmd : tok.metadata = some md) (hb : seconds now + 7200 < 2 ^ 64)
    (hp : TokenPolicy isURL 7200 (seconds now) md) :
    Exec (accessToken isURL (some s) (some tok)) [⟨.now, now⟩] (.done (s (accessClaims tok md))) := by
  have hv : validateMeta isURL 7200 (Device.unix now) md = true := policy_validateMeta hb hp
  simp only [accessToken, hid, hmd, if_false, Prog.call, bind_op, bind_ret, pure_eq]
  refine .step .now _ now _ _ ?_
  simp only [hv, if_true]
  exact .ret _

/-- **C50** (refresh tokens). As for access tokens, with fourteen days; the payload
leaves the confirmation out. -/
theorem C50_refresh_token (isURL : Str → Bool) (ser : Option (Claims → Option Str)) (t : Option Token) (tr : List Ev)
    (raw : Str) (h : Exec (TokenGen.refreshToken isURL ser t) tr (.done (some raw))) :
    ∃ s tok md now, ser = some s ∧ t = some tok ∧ tok.metadata = some md ∧ tr = [⟨.now, now⟩] ∧ tok.tokenId ≠ [] ∧
      TokenPolicy isURL 1209600 (seconds now) md ∧ s { accessClaims tok md with cnf := none } = some raw := by
  unfold TokenGen.refreshToken at h
  split at h
  · obtain ⟨_, h⟩ := exec_ret h; simp at h
  · obtain ⟨_, h⟩ := exec_ret h; simp at h
  · rename_i s tok
    split at h
    · obtain ⟨_, h⟩ := exec_ret h; simp at h
    · rename_i hid
      split at h
      · obtain ⟨_, h⟩ := exec_ret h; simp at h
      · rename_i md hmd
        simp only [Prog.call, bind_op, bind_ret, pure_eq] at h
        obtain ⟨now, tr', rfl, h'⟩ := exec_op_now h
        clear h
        have h := h'
        clear h'
        split at h
        · rename_i hv
          obtain ⟨rfl, hr⟩ := exec_ret h
          exact ⟨s, tok, md, now, rfl, rfl, hmd, rfl, hid, validateMeta_policy hv, hr.symm⟩
        · obtain ⟨_, h⟩ := exec_ret h; simp at h

theorem C50_refresh_token_complete (isURL : Str → Bool) (s : Claims → Option Str) (tok : Token) (md : TokenMeta)
    (now : Nat) (hid : tok.tokenId ≠ []) (hmd : tok.metadata = some md) (hb : seconds now + 1209600 < 2 ^ 64)
    (hp : TokenPolicy isURL 1209600 (seconds now) md) :
    Exec (TokenGen.refreshToken isURL (some s) (some tok)) [⟨.now, now⟩]
      (.done (s { accessClaims tok md with cnf := none })) := by
  have hv : validateMeta isURL (14 * 86400) (Device.unix now) md = true := policy_validateMeta hb hp
  simp only [TokenGen.refreshToken, hid, hmd, if_false, Prog.call, bind_op, bind_ret, pure_eq]
  refine .step .now _ now _ _ ?_
  simp only [hv, if_true]
  exact .ret _

/-- **C50** (client assertions). Issuer and subject agree, the audience is a URL, and the
lifetime is at most two hours. The `nbf` value is not checked (see
`C50_assertion_nbf_violated`). -/
theorem C50_client_assertion_partial (isURL : Str → Bool) (ser : Option (Claims → Option Str)) (t : Option Token)
    (tr : List Ev) (raw : Str) (h : Exec (TokenGen.clientAssertion isURL ser t) tr (.done (some raw))) :
    ∃ s tok md now, ser = some s ∧ t = some tok ∧ tok.metadata = some md ∧ tr = [⟨.now, now⟩] ∧ tok.tokenId ≠ [] ∧
      md.audience ≠ [] ∧ isURL md.audience = true ∧ Printable md.issuer ∧ md.subject = md.issuer ∧
      0 < md.issuedAt ∧ md.issuedAt ≤ seconds now ∧ md.issuedAt ≤ md.expiresAt ∧ md.expiresAt ≤ md.issuedAt + 7200 ∧
      s { accessClaims tok md with clientId := [], scope := [], cnf := none } = some raw := by
  unfold TokenGen.clientAssertion at h
  split at h
  · obtain ⟨_, h⟩ := exec_ret h; simp at h
  · obtain ⟨_, h⟩ := exec_ret h; simp at h
  · rename_i s tok
    split at h
    · obtain ⟨_, h⟩ := exec_ret h; simp at h
    · rename_i hid
      split at h
      · obtain ⟨_, h⟩ := exec_ret h; simp at h
      · rename_i md hmd
        simp only [Prog.call, bind_op, bind_ret, pure_eq] at h
        obtain ⟨now, tr', rfl, h'⟩ := exec_op_now h
        clear h
        have h := h'
        clear h'
        split at h
        · rename_i hv
          obtain ⟨rfl, hr⟩ := exec_ret h
          simp only [validateAssertion, Bool.and_eq_true, printable_iff, within_iff, Bool.not_eq_true',
            List.isEmpty_eq_false_iff, decide_eq_true_eq] at hv
          obtain ⟨⟨⟨⟨⟨⟨h1, h2⟩, h3⟩, h4⟩, h5⟩, h6⟩, h7⟩ := hv
          exact ⟨s, tok, md, now, rfl, rfl, hmd, rfl, hid, h1, h2, h3, h7, Nat.pos_of_ne_zero h5.1, h5.2.2, h6.2.1,
            Nat.le_trans h6.2.2 (maxExpiration_le _ _), hr.symm⟩
        · obtain ⟨_, h⟩ := exec_ret h; simp at h

private def demoMeta : TokenMeta :=
  { issuer := g!"https://as", subject := g!"alice", audience := g!"rs", scope := g!"openid", clientId := g!"cli",
    issuedAt := 1000, notBefore := 1001, expiresAt := 4600 }

private def demoTok : Token := { tokenId := g!"id", metadata := some demoMeta, confirmation := some ⟨g!"jkt"⟩ }

/-- Hypotheses of the C50 theorems are met by an ordinary token. -/
example : ∃ tr r, Exec (accessToken (fun _ => true) (some fun c => some (c.sub ++ c.jti)) (some demoTok)) tr (.done r) ∧
    r = some g!"aliceid" :=
  oracle_ex (fun | .now => 1000 * 1000000000 | c => Demo.answers c) _ (fun r => r = some g!"aliceid") (by decide +kernel)

example : TokenPolicy (fun _ => true) 7200 (seconds (1000 * 1000000000)) demoMeta :=
  validateMeta_policy (by decide +kernel)

example : ∃ tr r, Exec (TokenGen.refreshToken (fun _ => true) (some fun c => some (c.sub ++ c.jti)) (some demoTok)) tr
    (.done r) ∧ r = some g!"aliceid" :=
  oracle_ex (fun | .now => 1000 * 1000000000 | c => Demo.answers c) _ (fun r => r = some g!"aliceid") (by decide +kernel)

/-- **C50_violated** (client assertions). An assertion whose `nbf` lies after its `exp` is
signed. -/
theorem C50_assertion_nbf_violated : ∃ (tok : Token) (md : TokenMeta) (tr : List Ev) (raw : Str),
    tok.metadata = some md ∧ md.notBefore > md.expiresAt ∧
    Exec (TokenGen.clientAssertion (fun _ => true) (some fun c => some c.jti) (some tok)) tr (.done (some raw)) := by
  let md : TokenMeta := { issuer := g!"c", subject := g!"c", audience := g!"https://as", issuedAt := 10, expiresAt := 20,
                          notBefore := 5000 }
  let tok : Token := { tokenId := g!"id", metadata := some md }
  obtain ⟨tr, r, hx, hr⟩ := oracle_ex (fun | .now => 20000000000 | c => Demo.answers c)
    (TokenGen.clientAssertion (fun _ => true) (some fun c => some c.jti) (some tok)) (fun r => r = some g!"id")
    (by decide +kernel)
  subst hr
  exact ⟨tok, md, tr, g!"id", rfl, by decide, hx⟩

/-! ### C32: introspection answers -/

/-- **C32** (signed answer). The signed introspection answer says active exactly when the
token is active and `nbf ≤ now ≤ exp`, reveals claims only then, and they are the
token's. -/
theorem C32_signed (ser : Option (IntrospectionClaims → Option Str)) (t : Option Token) (tr : List Ev) (raw : Str)
    (h : Exec (TokenGen.introspection ser t) tr (.done (some raw))) :
    ∃ s tok md c, ser = some s ∧ t = some tok ∧ tok.metadata = some md ∧ s c = some raw ∧
      (c.active = true ↔ tok.status = .active ∧ ∃ now, ⟨.now, now⟩ ∈ tr ∧ tr.head? = some ⟨.now, now⟩ ∧
        md.notBefore ≤ seconds now ∧ seconds now ≤ md.expiresAt) ∧
      (c.active = false → c.revealed = none) ∧
      (c.active = true → c.revealed = some ⟨md.issuer, md.audience, md.issuedAt, md.expiresAt, md.clientId, md.scope,
        md.subject, tok.tokenId⟩) := by
  unfold TokenGen.introspection at h
  split at h
  · obtain ⟨_, h⟩ := exec_ret h; simp at h
  · obtain ⟨_, h⟩ := exec_ret h; simp at h
  · rename_i s tok
    split at h
    · obtain ⟨_, h⟩ := exec_ret h; simp at h
    · rename_i md hmd
      by_cases hst : tok.status = .active
      · simp only [hst, if_true, isUsable, hmd, Prog.call, bind_op, bind_ret, pure_eq] at h
        obtain ⟨now, tr', rfl, h'⟩ := exec_op_now h
        clear h
        have h := h'
        clear h'
        by_cases h1 : md.expiresAt < Device.unix now
        · simp only [h1, if_true, Prog.call, bind_op, bind_ret, pure_eq] at h
          obtain ⟨now', tr'', rfl, h'⟩ := exec_op_now h
          clear h
          have h := h'
          clear h'
          obtain ⟨rfl, hr⟩ := exec_ret h
          refine ⟨s, tok, md, _, rfl, rfl, hmd, hr.symm, ?_, by simp, by simp⟩
          simp only [Bool.false_eq_true, false_iff, not_and, not_exists, hst]
          intro _ n _ hn _ hle
          simp at hn
          subst hn
          exact Nat.not_lt.2 hle h1
        · by_cases h2 : md.notBefore > Device.unix now
          · simp only [h1, h2, if_true, if_false, Prog.call, bind_op, bind_ret, pure_eq] at h
            obtain ⟨now', tr'', rfl, h'⟩ := exec_op_now h
            clear h
            have h := h'
            clear h'
            obtain ⟨rfl, hr⟩ := exec_ret h
            refine ⟨s, tok, md, _, rfl, rfl, hmd, hr.symm, ?_, by simp, by simp⟩
            simp only [Bool.false_eq_true, false_iff, not_and, not_exists, hst]
            intro _ n _ hn hle
            simp at hn
            subst hn
            exact absurd h2 (Nat.not_lt.2 hle)
          · simp only [h1, h2, if_false, Prog.call, bind_op, bind_ret, pure_eq] at h
            obtain ⟨now', tr'', rfl, h'⟩ := exec_op_now h
            clear h
            have h := h'
            clear h'
            obtain ⟨rfl, hr⟩ := exec_ret h
            refine ⟨s, tok, md, _, rfl, rfl, hmd, hr.symm, ?_, by simp, by simp⟩
            simp only [true_iff]
            exact ⟨hst, now, by simp, by simp, Nat.le_of_not_lt h2, Nat.le_of_not_lt h1⟩
      · simp only [hst, if_false, Prog.call, bind_op, bind_ret, pure_eq] at h
        obtain ⟨now', tr'', rfl, h'⟩ := exec_op_now h
        clear h
        have h := h'
        clear h'
        obtain ⟨rfl, hr⟩ := exec_ret h
        exact ⟨s, tok, md, _, rfl, rfl, hmd, hr.symm, by simp [hst], by simp, by simp⟩

example : ∃ tr r, Exec (TokenGen.introspection (some fun c => some (if c.active then g!"yes" else g!"no"))
    (some { demoTok with status := .active })) tr (.done r) ∧ r = some g!"yes" :=
  oracle_ex (fun | .now => 2000 * 1000000000 | c => Demo.answers c) _ (fun r => r = some g!"yes") (by decide +kernel)

/-! ### C61: minted tokens against the signed-token policy -/

/-- The seconds of a later clock value. -/
theorem seconds_mono {a b : Nat} (h : a ≤ b) : seconds a ≤ seconds b := Nat.div_le_div_right h

/-- **C61_violated.** Tokens minted by the client credentials grant (no subject), the
device grant (no audience) and the exchange (no `nbf`) are refused by the signed access
token generator at every time: with it these grants never succeed. -/
theorem C61_violated (E : Env) (q : TokenReq) (tr : List Ev) (o : Outcome TokenResp)
    (h : Exec (TokenSvc.token E (some q)) tr o) (iss : Str) (t : Token) (r : SRes Unit)
    (hm : ⟨.tkCreate iss t, r⟩ ∈ tr)
    (hg : q.grant = some .clientCredentials ∨ (∃ dc, q.grant = some (.deviceCode dc)) ∨
      ∃ g, q.grant = some (.tokenExchange g))
    (isURL : Str → Bool) (ser : Option (Claims → Option Str)) (tr' : List Ev) (raw : Str) :
    ¬ Exec (accessToken isURL ser (some t)) tr' (.done (some raw)) := by
  intro hx
  obtain ⟨s, tok, md, now, _, ht, hmd, _, _, hp, _⟩ := C50_access_token isURL ser _ tr' raw hx
  cases ht
  obtain ⟨pre, post, _, hj⟩ := calls_mem (TokenSvc.token_calls E (some q)) h hm
  obtain ⟨q', c0, cl, hq, _, _, hmint⟩ := hj.create iss t rfl
  cases hq
  cases hmint with
  | code g s ar t hg' => simp [hg'] at hg
  | cc t hg' _ _ ha =>
    obtain ⟨n, j, v, _, _, rfl⟩ := ha
    simp only [TokenSvc.accessTokenSpec, Option.some.injEq] at hmd
    subst hmd
    exact hp.subject.1 rfl
  | device dc ref s dreq sub n t hg' _ _ _ _ _ _ _ _ ha =>
    rcases ha with ⟨n, j, v, _, _, rfl⟩ | ⟨_, n, j, v, _, _, rfl⟩
    · simp only [TokenSvc.accessTokenSpec, Option.some.injEq] at hmd
      subst hmd
      exact hp.audience.1 rfl
    · simp only [TokenSvc.refreshTokenSpec, Option.some.injEq] at hmd
      subst hmd
      exact hp.audience.1 rfl
  | refresh v rt md' n t hg' => simp [hg'] at hg
  | exchange g st md' n n2 jti v aud =>
    simp only [TokenSvc.exchangedSpec, Option.some.injEq] at hmd
    subst hmd
    have h1 := hp.times.issued.1
    have h2 := hp.times.notBefore.1
    exact absurd (Nat.lt_of_lt_of_le h1 h2) (Nat.lt_irrefl _)

/-- Does the execution store a token? -/
private def stores (q : TokenReq) : Bool :=
  (oracle Demo.answers (TokenSvc.token Demo.env (some q))).1.any fun
    | ⟨.tkCreate _ _, _⟩ => true
    | _ => false

private def demoReq (ty : Str) (g : Grant) : TokenReq :=
  { issuer := Demo.issuer, client := some Demo.client, grantType := ty, grant := some g }

/-- All five grants store a token in some execution. -/
example : stores (demoReq g!"client_credentials" .clientCredentials) = true ∧
    stores (demoReq g!"urn:ietf:params:oauth:grant-type:device_code" (.deviceCode g!"dc")) = true ∧
    stores (demoReq g!"urn:ietf:params:oauth:grant-type:token-exchange"
      (.tokenExchange ⟨g!"at", g!"urn:ietf:params:oauth:token-type:access_token"⟩)) = true ∧
    stores (demoReq g!"authorization_code" (.authorizationCode ⟨g!"c0de", g!"https://app/cb", Demo.verifier⟩)) = true ∧
    stores (demoReq g!"refresh_token" (.refreshToken g!"rt")) = true := by decide +kernel

/-- **C61_partial.** Tokens minted by the code and refresh grants meet the lifetime rules of
the signed-token generators at every later time; whether they are signed depends only on
the texts of their claims. Missing: the other grants (C61_violated). -/
theorem C61_accepted_partial (E : Env) (q : TokenReq) (tr : List Ev) (o : Outcome TokenResp)
    (h : Exec (TokenSvc.token E (some q)) tr o) (iss : Str) (t : Token) (r : SRes Unit)
    (hm : ⟨.tkCreate iss t, r⟩ ∈ tr)
    (hg : (∃ g, q.grant = some (.authorizationCode g)) ∨ ∃ v, q.grant = some (.refreshToken v)) :
    ∃ (now : Nat) (md : TokenMeta), ⟨.now, now⟩ ∈ tr ∧ t.metadata = some md ∧
      ∀ isURL later, now ≤ later → 0 < seconds now →
        (TokenPolicy isURL (if t.tokenType = .accessToken then 7200 else 1209600) (seconds later) md ↔
          Printable md.audience ∧ (md.issuer ≠ [] ∧ isURL md.issuer = true) ∧ Printable md.subject ∧
          Printable md.clientId ∧ Printable md.scope) := by
  obtain ⟨pre, post, htr, hj⟩ := calls_mem (TokenSvc.token_calls E (some q)) h hm
  obtain ⟨q', c0, cl, hq, _, _, hmint⟩ := hj.create iss t rfl
  cases hq
  have hpre : ∀ ev ∈ pre, ev ∈ tr := fun ev he => by rw [htr]; simp [he]
  have key : ∀ (now : Nat) (md : TokenMeta) (d : Nat) (a : Prop) [Decidable a], md.issuedAt = seconds now →
      md.notBefore = seconds now + 1 → md.expiresAt = seconds now + d →
      (a → d = 3600) → (¬ a → d = 604800) →
      ∀ isURL later, now ≤ later → 0 < seconds now →
        (TokenPolicy isURL (if a then 7200 else 1209600) (seconds later) md ↔
          Printable md.audience ∧ (md.issuer ≠ [] ∧ isURL md.issuer = true) ∧ Printable md.subject ∧
          Printable md.clientId ∧ Printable md.scope) := by
    intro now md d a _ h1 h2 h3 h4 h5 isURL later hl hpos
    have hmono := seconds_mono hl
    constructor
    · rintro ⟨p1, p2, p3, p4, p5, _⟩; exact ⟨p1, p2, p3, p4, p5⟩
    · rintro ⟨p1, p2, p3, p4, p5⟩
      refine ⟨p1, p2, p3, p4, p5, ?_⟩
      rw [h1, h2, h3]
      by_cases ha : a
      · rw [if_pos ha, h4 ha]
        exact ⟨⟨hpos, hmono⟩, by omega, by omega⟩
      · rw [if_neg ha, h5 ha]
        exact ⟨⟨hpos, hmono⟩, by omega, by omega⟩
  have hmade : (∃ md cnf, TokenSvc.ATAt pre cl md cnf t) ∨ ∃ md cnf, TokenSvc.RTAt pre cl md cnf t := by
    cases hmint with
    | code g s ar t hg' _ _ _ _ _ _ ht => exact ht.imp (fun x => ⟨_, _, x⟩) (fun x => ⟨_, _, x.2⟩)
    | cc t hg' => simp [hg'] at hg
    | device dc ref s dreq sub n t hg' => simp [hg'] at hg
    | refresh v rt md' n t hg' _ _ _ _ _ _ _ _ ht => exact ht.imp (fun x => ⟨_, _, x⟩) (fun x => ⟨_, _, x⟩)
    | exchange g st md' n n2 jti v aud hg' => simp [hg'] at hg
  rcases hmade with ⟨md, cnf, now, jti, v, _, hn, rfl⟩ | ⟨md, cnf, now, jti, v, _, hn, rfl⟩
  · exact ⟨now, _, hpre _ hn, rfl,
      key now _ 3600 _ rfl rfl (seconds_add now 3600) (fun _ => rfl) (fun h => absurd rfl h)⟩
  · exact ⟨now, _, hpre _ hn, rfl,
      key now _ 604800 _ rfl rfl (seconds_add now 604800) (fun h => TokenType.noConfusion h) (fun _ => rfl)⟩

end Verif.Props
