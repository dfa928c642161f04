import Verif.Proofs.HttpServe

/-! Serving one HTTP request undisturbed, with random strings of a certain kind. -/
namespace Verif
open Verif.Prog Verif.Spec Verif.Store
variable {E : Env}

/-- `Good` for generators that produce strings that satisfy `D`. -/
def GoodOn {α : Type} (E : Env) (D : Str → Prop) (Φ : α → St → Prop) : Prog α → Nat → St → Prop
  | .ret a, _, s => Φ a s
  | .panic, _, _ => False
  | .op _ _, 0, _ => False
  | .op c k, n + 1, s => ∀ str : Str, D str →
      GoodOn E D Φ (k (exec E c { str := str } s).1) n (exec E c { str := str } s).2

variable {D : Str → Prop}

theorem Good.on {α : Type} {Φ : α → St → Prop} {p : Prog α} {n : Nat} {s : St} (hD : ∀ str, D str → str ≠ [])
    (h : Good E Φ p n s) : GoodOn E D Φ p n s := by
  induction p generalizing n s with
  | ret _ => exact h
  | panic => exact h
  | op c k ih =>
    cases n with
    | zero => exact h
    | succ n => exact fun str hs => ih _ (h str (hD str hs))

theorem goodOn_le {α : Type} {Φ : α → St → Prop} {p : Prog α} {m n : Nat} {s : St} (h : GoodOn E D Φ p m s) (hmn : m ≤ n) :
    GoodOn E D Φ p n s := by
  induction p generalizing m n s with
  | ret _ => exact h
  | panic => exact h
  | op c k ih =>
    cases m with
    | zero => exact h.elim
    | succ m =>
      cases n with
      | zero => omega
      | succ n => exact fun str hs => ih _ (h str hs) (by omega)

theorem goodOn_bind {α β : Type} {Φ : β → St → Prop} {Ψ : α → St → Prop} {p : Prog α} {f : α → Prog β} {m n : Nat}
    {s : St} (h : GoodOn E D Ψ p m s) (hf : ∀ a s', Ψ a s' → GoodOn E D Φ (f a) n s') : GoodOn E D Φ (p >>= f) (m + n) s := by
  induction p generalizing m s with
  | ret a => exact goodOn_le (hf a s h) (by omega)
  | panic => exact h.elim
  | op c k ih =>
    cases m with
    | zero => exact h.elim
    | succ m =>
      have : m + 1 + n = (m + n) + 1 := by omega
      rw [this]
      exact fun str hs => ih _ (h str hs)

theorem goodOn_mono {α : Type} {Φ Ψ : α → St → Prop} {p : Prog α} {n : Nat} {s : St} (h : GoodOn E D Φ p n s)
    (hi : ∀ a s', Φ a s' → Ψ a s') : GoodOn E D Ψ p n s := by
  induction p generalizing n s with
  | ret a => exact hi _ _ h
  | panic => exact h
  | op c k ih =>
    cases n with
    | zero => exact h
    | succ n => exact fun str hs => ih _ (h str hs)

namespace TokenSvc

theorem goodOn_accessToken (hD : ∀ str, D str → str ≠ []) (cl : Client) (md : TokenMeta) (cnf : Option Cnf) (s : St) :
    GoodOn E D (fun o s' => ∃ jti v, D jti ∧ D v ∧ o = some { accessTokenSpec cl md cnf s.clock jti with value := v } ∧
      s' = create E md.issuer { accessTokenSpec cl md cnf s.clock jti with value := v } s)
      (generateAccessToken cl md cnf) 4 s := by
  unfold generateAccessToken
  simp only [Prog.call, bind_op, bind_ret, pure_eq, GoodOn, exec, gen]
  intro _ _ jti hj v hv
  simp only [hD v hv, if_false, GoodOn]
  intro _ _
  exact ⟨jti, v, hj, hv, rfl, rfl⟩

theorem goodOn_refreshToken (hD : ∀ str, D str → str ≠ []) (cl : Client) (md : TokenMeta) (cnf : Option Cnf) (s : St) :
    GoodOn E D (fun o s' => ∃ jti v, D jti ∧ D v ∧ o = some { refreshTokenSpec cl md cnf s.clock jti with value := v } ∧
      s' = create E md.issuer { refreshTokenSpec cl md cnf s.clock jti with value := v } s)
      (generateRefreshToken cl md cnf) 4 s := by
  unfold generateRefreshToken
  simp only [Prog.call, bind_op, bind_ret, pure_eq, GoodOn, exec, gen]
  intro _ _ jti hj v hv
  simp only [hD v hv, if_false, GoodOn]
  intro _ _
  exact ⟨jti, v, hj, hv, rfl, rfl⟩

theorem goodOn_token {Φ : TokenResp → St → Prop} {q : TokenReq} {c cl : Client} {n : Nat} {s : St}
    (hv : validateRequest (some q) = none) (hc : q.client = some c) (hs : s.clients c.clientId = some cl)
    (h : GoodOn E D Φ (dispatch E (some cl) q) n s) : GoodOn E D Φ (token E (some q)) (n + 1) s := by
  unfold token
  rw [hv]
  simp only [hc, Prog.call, bind_op, bind_ret, GoodOn, exec, faulty, hs, found]
  intro _ _
  exact h

end TokenSvc

namespace Http
variable {S : Server}

theorem run_aloneOn {Φ : Resp → St → Prop} {route : Route} {r : Req} :
    ∀ {chs : List Choice} {p : Prog Resp} {n : Nat} {c : Conf}
    {ths : List Thread}, GoodOn S.E D Φ p n c.st → (∀ ch ∈ chs, ch.fault = .none ∧ D ch.str) → n ≤ chs.length →
    c.threads = ths ++ [⟨route, r, p⟩] →
    ∃ a, ((chs.map (Label.run ths.length)).foldl (step S) c).threads = ths ++ [⟨route, r, .ret a⟩] ∧
      Φ a ((chs.map (Label.run ths.length)).foldl (step S) c).st := by
  intro chs
  induction chs with
  | nil =>
    intro p n c ths h hu hn ht
    cases p with
    | ret a => exact ⟨a, ht, h⟩
    | panic => exact h.elim
    | op c k =>
      cases n with
      | zero => exact h.elim
      | succ n => simp at hn
  | cons ch chs ih =>
    intro p n c ths h hu hn ht
    simp only [List.map_cons, List.foldl_cons]
    have hget : c.threads[ths.length]? = some ⟨route, r, p⟩ := by rw [ht]; simp
    cases p with
    | ret a =>
      have hst : step S c (.run ths.length ch) = c := by simp [step, hget]
      rw [hst]
      exact ih (p := .ret a) (n := 0) h (fun x hx => hu x (by simp [hx])) (by omega) ht
    | panic => exact h.elim
    | op cm k =>
      cases n with
      | zero => exact h.elim
      | succ n =>
        obtain ⟨g1, g2⟩ := hu ch (by simp)
        obtain ⟨f, str⟩ := ch
        simp only at g1 g2
        subst g1
        refine ih (c := step S c (.run ths.length { str := str })) (n := n) (p := k (exec S.E cm { str := str } c.st).1)
          ?_ (fun x hx => hu x (by simp [hx])) (by simp at hn; omega) ?_
        · simp only [step, hget]
          exact h str g2
        · simp only [step, hget, Entry.res]
          rw [ht]; simp

theorem serve_goodOn {Φ : Resp → St → Prop} {s : St} {ls : List Label} {route : Route} {r : Req} {n : Nat}
    {chs : List Choice} (h : GoodOn S.E D Φ (serve S route r) n (run S s ls).st)
    (hu : ∀ ch ∈ chs, ch.fault = .none ∧ D ch.str) (hn : n ≤ chs.length)
    {i : Nat} (hi : (run S s ls).threads.length = i) :
    ∃ a, Answered (run S s (ls ++ serving i route r chs)) i route r a ∧
      Φ a (run S s (ls ++ serving i route r chs)).st := by
  subst hi
  obtain ⟨a, h1, h2⟩ := run_aloneOn (c := step S (run S s ls) (.arrive route r)) (ths := (run S s ls).threads)
    (route := route) (r := r) h hu hn rfl
  have hrun : run S s (ls ++ serving (run S s ls).threads.length route r chs) =
      ((chs.map (Label.run (run S s ls).threads.length)).foldl (step S) (step S (run S s ls) (.arrive route r))) := by
    rw [run_append]; rfl
  rw [hrun]
  exact ⟨a, ⟨_, by rw [h1]; simp; rfl, rfl, rfl, rfl⟩, h2⟩

theorem goodOn_clientAuth {Φ : Resp → St → Prop} {r : Req} {c : Client} {st : St} {n : Nat} {h : Option Client → Prog Resp}
    (hp : Presents S.P st r c) (hh : GoodOn S.E D Φ (h (some c)) n st) : GoodOn S.E D Φ (clientAuth S r h) (n + 2) st := by
  cases hp with
  | named id hq hne hreg hpub =>
    have e : r.get g!"client_id" = id := by simp [Req.get, hq]
    unfold clientAuth
    simp only [e, hne, ne_eq, not_false_eq_true, if_true, Prog.call, bind_op, bind_ret, GoodOn, exec, faulty, hreg, found,
      hpub]
    exact fun _ _ => goodOn_le hh (by omega)
  | key a t cl keys k hq hty ha hne hp hc hsame hiss haud hjti h0 hexp hreg hj hks hk hu hv =>
    have e : r.get g!"client_id" = [] := by simp [Req.get, hq]
    have hcomp : cl.complete = true := by
      simp [ClientAuth.PrivClaims.complete, hiss, hsame ▸ hiss, haud, hjti, Nat.pos_iff_ne_zero.1 h0]
    have hlt : ¬ cl.exp < Device.unix st.clock := by
      have : Device.unix st.clock = seconds st.clock := rfl
      omega
    have hsig : Jose.validateSignature (some keys) (some t) = true :=
      Jose.validateSignature_iff.2 ⟨k, hk, hu, hv⟩
    unfold clientAuth
    simp only [e, ne_eq, not_true, if_false, postValue_some hty, postValue_some ha,
      show g!"urn:ietf:params:oauth:client-assertion-type:jwt-bearer" = ClientAuth.typeBearer from rfl, if_true,
      ClientAuth.privateKeyJwt, hne, hp, hc, hcomp, hsame, hlt, ClientAuth.privateKeyCheck, Prog.call, bind_op, bind_ret,
      pure_eq, GoodOn, exec, faulty, hsame ▸ hreg, found, hj, hks, hsig, afterAuth, Bool.false_eq_true]
    exact fun _ _ _ _ => hh

/-- /token for any grant: what the service does decides. -/
theorem goodOn_tokenServed {Ψ : TokenResp → Token → TokenMeta → St → Prop} {r : Req} {cl : Client} {st : St}
    {cnf : Option Cnf} {n : Nat} (hD : ∀ str, D str → str ≠ []) (hp : Presents S.P st r cl) (hm : r.method = g!"POST")
    (hb : Binding S st r cl cnf)
    (h : ∀ P, GoodOn S.E D (fun a st' => a.goErr = false ∧ st'.clock = st.clock ∧ ∃ t md, a.accessToken = some t ∧
        t.metadata = some md ∧ md.expiresAt = seconds st.clock + 3600 ∧ Ψ a t md st')
      (TokenSvc.token S.E (some (tokenMsg S r cl cnf))) n { st with proofs := P }) :
    GoodOn S.E D (fun o st' => st'.clock = st.clock ∧ ∃ a t md, Ψ a t md st' ∧ o = ⟨200, .tokens {
        accessToken := t.value, expiresIn := 3600, tokenType := if cnf.isSome then g!"DPoP" else g!"Bearer", scope := md.scope,
        refreshToken := (a.refreshToken.map (·.value)).getD [] }⟩)
      (serve S .token r) (n + 7) st := by
  have key : ∀ P, GoodOn S.E D (fun o st' => st'.clock = st.clock ∧ ∃ a t md, Ψ a t md st' ∧ o = ⟨200, .tokens {
        accessToken := t.value, expiresIn := 3600, tokenType := if cnf.isSome then g!"DPoP" else g!"Bearer", scope := md.scope,
        refreshToken := (a.refreshToken.map (·.value)).getD [] }⟩)
      (TokenSvc.token S.E (some (tokenMsg S r cl cnf)) >>= tokenAnswer cnf.isSome) (n + 1) { st with proofs := P } := by
    intro P
    refine goodOn_bind (m := n) (n := 1) (h P) ?_
    rintro a s' ⟨g1, g2, t, md, g3, g4, g5, g6⟩
    refine goodOn_mono (Good.on hD (good_tokenAnswer g1 g3 g4 (by rw [g2]; exact g5))) ?_
    rintro _ _ ⟨rfl, rfl⟩
    exact ⟨g2, a, t, md, g6, rfl⟩
  refine goodOn_clientAuth (n := n + 5) hp ?_
  cases hb with
  | none hd hbound =>
    unfold tokenHandler
    simp only [hm, ne_eq, not_true, if_false, hd, hbound, Bool.false_eq_true, and_false, if_true]
    exact goodOn_le (key st.proofs) (by omega)
  | key jkt hd hpr =>
    unfold tokenHandler
    simp only [hm, ne_eq, not_true, if_false, hd, false_and]
    refine goodOn_le (m := 4 + (n + 1)) (goodOn_bind (hm ▸ Good.on hD (good_proof hpr hd hm)) ?_) (by omega)
    rintro _ _ ⟨rfl, P, rfl⟩
    exact key P

/-- The strings drawn are not empty and are told apart from the token with this value and id. -/
def Apart (S : Server) (v id : Str) (str : Str) : Prop :=
  str ≠ [] ∧ str ≠ id ∧ tokenKey S.E S.issuer str ≠ tokenKey S.E S.issuer v

/-- The refresh grant. -/
theorem goodOn_refresh {r : Req} {cl : Client} {st : St} {cnf : Option Cnf} {v id : Str} {g : Granted} {exp : Nat}
    (hR : Refreshable S st v id g exp) (hexp : seconds st.clock ≤ exp) (hp : Presents S.P st r cl)
    (hcl : st.clients cl.clientId = some cl) (hown : cl.clientId = g.clientId) (hgt : MemFold g!"refresh_token" cl.grantTypes)
    (hi : S.issuer ≠ []) (hurl : S.E.parseRequestURI S.issuer = true) (hm : r.method = g!"POST")
    (hty : r.formValue g!"grant_type" = g!"refresh_token") (hv : r.formValue g!"refresh_token" = v)
    (hb : Binding S st r cl cnf) :
    GoodOn S.E (Apart S v id) (fun o st' => st'.clock = st.clock ∧ ∃ b, o = ⟨200, .tokens b⟩ ∧ b.accessToken ≠ [] ∧
        b.expiresIn = 3600 ∧ b.tokenType = (if cnf.isSome then g!"DPoP" else g!"Bearer") ∧ b.scope = g.scope ∧
        Fresh S.E st' st.clock S.issuer b.accessToken g.sub g.clientId g.scope g.audience g.cnf ∧
        (seconds st.clock + 3600 ≤ exp → b.refreshToken = [] ∧ Refreshable S st' v id g exp) ∧
        (exp < seconds st.clock + 3600 → Spent S st' v ∧ ∃ id', Refreshable S st' b.refreshToken id' g (seconds st.clock + 604800)))
      (serve S .token r) 19 st := by
  obtain ⟨hne, rt, md, e1, e2, e3, e4, e5, e6, e7, e8, e9, e10, e11, e12, e13, e14⟩ := hR
  obtain ⟨mi, ms, m1, m2, m3, mc, msc, ma, m4, m5⟩ := md
  obtain ⟨gs, gc, gsc, ga, gk⟩ := g
  simp only at e8 e9 e10 e11 e12 e13 e14 hown
  subst e3 e8 e9 e10 e11 e12 e13 e14 hown
  have hD : ∀ str, Apart S v rt.tokenId str → str ≠ [] := fun _ h => h.1
  have hgr : grantOf r = some (.refreshToken v) := by
    simp [grantOf, hty, Oidc.grantAuthorizationCode, Oidc.grantClientCredentials, Oidc.grantDeviceCode,
      Oidc.grantRefreshToken, hv]
  have hval : TokenSvc.validateRequest (some (tokenMsg S r cl cnf)) = none := by
    simp [TokenSvc.validateRequest, tokenMsg, hi, hty, hgr, Oidc.grantAuthorizationCode, Oidc.grantClientCredentials,
      Oidc.grantDeviceCode, Oidc.grantRefreshToken]
  have hdisp : TokenSvc.dispatch S.E (some cl) (tokenMsg S r cl cnf) =
      TokenSvc.refreshToken S.E (some cl) (tokenMsg S r cl cnf) v := by
    simp [TokenSvc.dispatch, tokenMsg, hty, hgr, Oidc.grantAuthorizationCode, Oidc.grantClientCredentials,
      Oidc.grantDeviceCode, Oidc.grantRefreshToken]
  have hgt' : StringArray.contains cl.grantTypes Oidc.grantRefreshToken = true := (contains_iff _ _).2 hgt
  have ex : Device.unix (st.clock + 3600 * 1000000000) = seconds st.clock + 3600 := seconds_add st.clock 3600
  have ex' : Device.unix (st.clock + 7 * 86400 * 1000000000) = seconds st.clock + 604800 := seconds_add st.clock 604800
  have core : ∀ P, GoodOn S.E (Apart S v rt.tokenId) (fun a st' => a.goErr = false ∧ st'.clock = st.clock ∧ ∃ t md,
        a.accessToken = some t ∧ t.metadata = some md ∧ md.expiresAt = seconds st.clock + 3600 ∧
        (t.value ≠ [] ∧ md.scope = msc ∧
        Fresh S.E st' st.clock S.issuer t.value ms cl.clientId msc ma rt.confirmation ∧
        (seconds st.clock + 3600 ≤ m3 → a.refreshToken = none ∧ Refreshable S st' v rt.tokenId ⟨ms, cl.clientId, msc, ma, rt.confirmation⟩ m3) ∧
        (m3 < seconds st.clock + 3600 → ∃ t' id', a.refreshToken = some t' ∧ Spent S st' v ∧
          Refreshable S st' t'.value id' ⟨ms, cl.clientId, msc, ma, rt.confirmation⟩ (seconds st.clock + 604800))))
      (TokenSvc.token S.E (some (tokenMsg S r cl cnf))) 12 { st with proofs := P } := by
    intro P
    refine TokenSvc.goodOn_token (n := 11) (c := cl) (cl := cl) hval rfl hcl ?_
    have he : ¬ m3 < Device.unix st.clock := by
      have : Device.unix st.clock = seconds st.clock := rfl
      omega
    rw [hdisp]
    simp only [TokenSvc.refreshToken, tokenMsg, hi, hurl, hne, hgt', if_false, not_true, Prog.call, bind_op, bind_ret,
      GoodOn, exec, faulty, e1, found, e5, e6, ne_eq, e7, he]
    intro _ _ _ _
    unfold TokenSvc.refreshTokens
    refine goodOn_bind (m := 4) (n := 5) (TokenSvc.goodOn_accessToken hD cl _ _ _) ?_
    rintro _ s' ⟨jti, val, hj, hval, rfl, hs'⟩
    have hx := Props.accessToken_expiry cl ⟨S.issuer, ms, m1, m2, m3, cl.clientId, msc, ma, m4, m5⟩ rt.confirmation st.clock jti val
    simp only [hx]
    have k1 : s'.clock = st.clock := by rw [hs']; rfl
    have k2 : s'.tokId rt.tokenId = some rt := by
      rw [hs']; exact (if_neg (fun h => hj.2.1 h.symm)).trans e2
    have k3 : ∀ x, x ≠ tokenKey S.E S.issuer val → s'.tokVal x = st.tokVal x := by
      intro x hx; rw [hs']; exact if_neg hx
    have k4 := show s'.tokVal (tokenKey S.E S.issuer val) = some _ by rw [hs']; exact if_pos rfl
    by_cases hlt : seconds st.clock + 3600 > m3
    · rw [if_pos hlt]
      refine goodOn_bind (m := 4) (n := 1) (TokenSvc.goodOn_refreshToken hD cl _ _ _) ?_
      rintro _ s'' ⟨jti', val', hj', hval', rfl, hs''⟩
      rw [k1] at hs'' ⊢
      have q1 : s''.clock = st.clock := by rw [hs'']; exact k1
      have q2 : s''.tokId rt.tokenId = some rt := by
        rw [hs'']; exact (if_neg (fun h => hj'.2.1 h.symm)).trans k2
      have q3 : ∀ x, x ≠ tokenKey S.E S.issuer val' → s''.tokVal x = s'.tokVal x := by
        intro x hx; rw [hs'']; exact if_neg hx
      have q4 := show s''.tokVal (tokenKey S.E S.issuer val') = some _ by rw [hs'']; exact if_pos rfl
      have q5 := show s''.tokId jti' = some _ by rw [hs'']; exact if_pos rfl
      simp only [Prog.call, bind_op, bind_ret, pure_eq, GoodOn, exec, faulty, Store.revoke, q2]
      intro _ _
      have n1 : tokenKey S.E S.issuer val ≠ rt.value := by rw [e4]; exact hval.2.2
      have n2 : tokenKey S.E S.issuer val' ≠ rt.value := by rw [e4]; exact hval'.2.2
      refine ⟨trivial, q1, _, _, rfl, rfl, ex, hval.1, rfl, ?_, fun h => absurd hlt (by omega), fun _ => ⟨_, jti', rfl, ?_, ?_⟩⟩
      · constructor
        simp only [upd, if_neg n1]
        by_cases hk : tokenKey S.E S.issuer val = tokenKey S.E S.issuer val'
        · rw [hk, q4]
          refine ⟨_, _, rfl, rfl, rfl, rfl, rfl, rfl, rfl, rfl, rfl, rfl, ?_⟩
          show seconds st.clock + 3600 ≤ Device.unix (st.clock + 7 * 86400 * 1000000000)
          omega
        · rw [q3 _ hk, k4]
          exact ⟨_, _, rfl, rfl, rfl, rfl, rfl, rfl, rfl, rfl, rfl, rfl, Nat.le_of_eq ex.symm⟩
      · refine ⟨hne, { rt with status := .revoked }, ?_, rfl⟩
        rw [← e4]
        simp only [upd, if_true]
      · refine ⟨hval'.1, ?_⟩
        simp only [upd, if_neg hj'.2.1, if_neg n2]
        exact ⟨_, _, q4, q5, rfl, rfl, rfl, rfl, rfl, rfl, rfl, rfl, rfl, rfl, rfl, ex'⟩
    · rw [if_neg hlt]
      refine ⟨rfl, k1, _, _, rfl, rfl, ex, hval.1, rfl, ?_, fun _ => ⟨rfl, hne, ?_⟩, fun h => absurd h (by omega)⟩
      · constructor
        rw [k4]
        exact ⟨_, _, rfl, rfl, rfl, rfl, rfl, rfl, rfl, rfl, rfl, rfl, Nat.le_of_eq ex.symm⟩
      · refine ⟨rt, _, ?_, k2, rfl, e4, e5, e6, e7, rfl, rfl, rfl, rfl, rfl, rfl, rfl⟩
        rw [k3 _ (fun h => hval.2.2 h.symm), e1]
  refine goodOn_mono (goodOn_tokenServed (n := 12) hD hp hm hb core) ?_
  rintro o st' ⟨g1, a, t, md', ⟨g2, g3, g4, g5, g6⟩, rfl⟩
  refine ⟨g1, _, rfl, g2, rfl, rfl, g3, g4, ?_, ?_⟩
  · intro h
    obtain ⟨k1, k2⟩ := g5 h
    exact ⟨by simp [k1], k2⟩
  · intro h
    obtain ⟨t', id', k1, k2, k3⟩ := g6 h
    exact ⟨k2, id', by simpa [k1] using k3⟩

/-- The client credentials grant. -/
theorem goodOn_credentials {r : Req} {cl : Client} {st : St} {cnf : Option Cnf} (hp : Presents S.P st r cl)
    (hcl : st.clients cl.clientId = some cl) (hgt : MemFold g!"client_credentials" cl.grantTypes)
    (hsec : cl.clientType = .confidential ∨ cl.clientType = .credentialed) (hi : S.issuer ≠ []) (hurl : S.E.parseRequestURI S.issuer = true) (hm : r.method = g!"POST")
    (hty : r.formValue g!"grant_type" = g!"client_credentials") (hb : Binding S st r cl cnf) :
    GoodOn S.E (· ≠ []) (fun o st' => st'.clock = st.clock ∧ ∃ b, o = ⟨200, .tokens b⟩ ∧ b.accessToken ≠ [] ∧
        b.expiresIn = 3600 ∧ b.tokenType = (if cnf.isSome then g!"DPoP" else g!"Bearer") ∧ b.scope = [] ∧
        b.refreshToken = [] ∧ Fresh S.E st' st.clock S.issuer b.accessToken [] cl.clientId [] [] cnf)
      (serve S .token r) 12 st := by
  have hD : ∀ str : Str, str ≠ [] → str ≠ [] := fun _ h => h
  have hgr : grantOf r = some .clientCredentials := by
    simp [grantOf, hty, Oidc.grantAuthorizationCode, Oidc.grantClientCredentials]
  have hval : TokenSvc.validateRequest (some (tokenMsg S r cl cnf)) = none := by
    simp [TokenSvc.validateRequest, tokenMsg, hi, hty, hgr, Oidc.grantAuthorizationCode, Oidc.grantClientCredentials]
  have hdisp : TokenSvc.dispatch S.E (some cl) (tokenMsg S r cl cnf) =
      TokenSvc.clientCredentials S.E (some cl) (tokenMsg S r cl cnf) := by
    simp [TokenSvc.dispatch, tokenMsg, hty, hgr, Oidc.grantClientCredentials]
  have hgt' : StringArray.contains cl.grantTypes Oidc.grantClientCredentials = true := (contains_iff _ _).2 hgt
  have ex : Device.unix (st.clock + 3600 * 1000000000) = seconds st.clock + 3600 := seconds_add st.clock 3600
  have core : ∀ P, GoodOn S.E (· ≠ []) (fun a st' => a.goErr = false ∧ st'.clock = st.clock ∧ ∃ t md,
        a.accessToken = some t ∧ t.metadata = some md ∧ md.expiresAt = seconds st.clock + 3600 ∧
        (t.value ≠ [] ∧ md.scope = [] ∧ a.refreshToken = none ∧
        Fresh S.E st' st.clock S.issuer t.value [] cl.clientId [] [] cnf))
      (TokenSvc.token S.E (some (tokenMsg S r cl cnf))) 5 { st with proofs := P } := by
    intro P
    refine TokenSvc.goodOn_token (n := 4) (c := cl) (cl := cl) hval rfl hcl ?_
    rw [hdisp]
    simp only [TokenSvc.clientCredentials, tokenMsg, hi, hurl, hgt', hsec, if_false, not_true]
    refine goodOn_bind (m := 4) (n := 0) (TokenSvc.goodOn_accessToken hD cl _ _ _) ?_
    rintro _ s' ⟨jti, val, hj, hval, rfl, rfl⟩
    refine ⟨rfl, rfl, _, _, rfl, rfl, ex, hval, rfl, rfl, ?_⟩
    constructor
    simp only [create, upd, if_true]
    exact ⟨_, _, rfl, rfl, rfl, rfl, rfl, rfl, rfl, rfl, rfl, rfl, Nat.le_of_eq ex.symm⟩
  refine goodOn_mono (goodOn_tokenServed (n := 5) hD hp hm hb core) ?_
  rintro o st' ⟨g1, a, t, md', ⟨g2, g3, g4, g5⟩, rfl⟩
  exact ⟨g1, _, rfl, g2, rfl, rfl, g3, by simp [g4], g5⟩

/-! ### Revocation -/

theorem good_revoke {r : Req} {cl : Client} {st : St} {v : Str} {t : Token}
    (ht : st.tokVal (tokenKey S.E S.issuer v) = some t) (hid : st.tokId t.tokenId = some t)
    (hk : t.value = tokenKey S.E S.issuer v) (hp : Presents S.P st r cl)
    (hcl : st.clients cl.clientId = some cl) (hi : S.issuer ≠ []) (hurl : S.E.parseRequestURI S.issuer = true)
    (hv : v ≠ []) (hr : r.formValue g!"token" = v) :
    Good S.E (fun o st' => o = ⟨200, .empty⟩ ∧ Spent S st' v) (serve S .revoke r) 5 st := by
  refine good_clientAuth (n := 3) hp ?_
  unfold revokeHandler
  simp only [TokenSvc.revoke, hi, hurl, hr, hv, if_false, not_true, Prog.call, bind_op, bind_ret, pure_eq, Good, exec,
    faulty, hcl, found, ht, Store.revoke, hid, Bool.false_eq_true]
  intro _ _ _ _ _ _
  refine ⟨trivial, hv, { t with status := .revoked }, ?_, rfl⟩
  rw [← hk]
  simp only [upd, if_true]

/-- Nothing but storing a token under the value brings it back. -/
theorem spent_left {st st' : St} {es : List Entry} {v : Str} (h : Linked S.E st es st') (hl : NeverStores S es v)
    (hx : Spent S st v) : Spent S st' v := by
  refine ⟨hx.1, ?_⟩
  refine Linked.keep (P := fun st => ∃ t, st.tokVal (tokenKey S.E S.issuer v) = some t ∧ t.status = .revoked)
    (by rintro s s' ⟨d, rfl⟩; exact Iff.rfl) h ?_ hx.2
  rintro e he ⟨t, hp, hs⟩
  rcases exec_tokens S.E e.cmd e.choice e.pre with ⟨-, h⟩ | ⟨i, t', hc, h⟩ | ⟨i, id, t', hc, ht, h⟩
  · rw [Entry.post, h]; exact ⟨t, hp, hs⟩
  · rw [Entry.post, h]
    simp only [create, upd]
    rw [if_neg (Ne.symm (hl e he i t' hc))]; exact ⟨t, hp, hs⟩
  · rw [Entry.post, h]
    simp only [Store.revoke, ht, upd]
    split
    · exact ⟨_, rfl, rfl⟩
    · exact ⟨t, hp, hs⟩

theorem refreshable_left {st st' : St} {es : List Entry} {v id : Str} {g : Granted} {exp : Nat} (h : Linked S.E st es st')
    (hl : LeavesToken S es v) (hl' : LeavesId es id) (hx : Refreshable S st v id g exp) : Refreshable S st' v id g exp := by
  obtain ⟨hne, t, md, e1, e2, e3⟩ := hx
  refine ⟨hne, t, md, token_left h hl e1, ?_, e3⟩
  refine Linked.keep (P := fun st => st.tokId id = some t) (by rintro s s' ⟨d, rfl⟩; exact Iff.rfl) h ?_ e2
  intro e he hp
  rcases exec_tokens S.E e.cmd e.choice e.pre with ⟨h, -⟩ | ⟨i, t', hc, h⟩ | ⟨i, id', t', hc, ht, h⟩
  · rw [Entry.post, h]; exact hp
  · rw [Entry.post, h]
    simp only [create, upd]
    rw [if_neg (fun k => (hl' e he).1 i t' hc k.symm)]; exact hp
  · rw [Entry.post, h]
    simp only [Store.revoke, ht, upd]
    rw [if_neg (fun k => (hl' e he).2 i id' t' hc ht k.symm)]; exact hp

theorem good_introspect_spent {r : Req} {cl : Client} {st : St} {v : Str} (hs : Spent S st v) (hp : Presents S.P st r cl)
    (hcl : st.clients cl.clientId = some cl) (hi : S.issuer ≠ []) (hurl : S.E.parseRequestURI S.issuer = true)
    (hr : r.formValue g!"token" = v) :
    Good S.E (fun o _ => o = ⟨200, .introspection none⟩) (serve S .introspect r) 5 st := by
  obtain ⟨hv, t, e1, e2⟩ := hs
  refine good_clientAuth (n := 3) hp ?_
  unfold introspectHandler
  simp only [TokenSvc.introspect, hi, hurl, hr, hv, if_false, not_true, Prog.call, bind_op, bind_ret, pure_eq, Good, exec,
    faulty, hcl, found, e1, Bool.false_eq_true, e2, reduceCtorEq]
  intro _ _ _ _
  trivial

theorem good_refresh_spent {r : Req} {cl : Client} {st : St} {v : Str} {cnf : Option Cnf} (hs : Spent S st v)
    (hp : Presents S.P st r cl) (hcl : st.clients cl.clientId = some cl) (hgt : MemFold g!"refresh_token" cl.grantTypes)
    (hi : S.issuer ≠ []) (hurl : S.E.parseRequestURI S.issuer = true) (hm : r.method = g!"POST")
    (hty : r.formValue g!"grant_type" = g!"refresh_token") (hr : r.formValue g!"refresh_token" = v)
    (hb : Binding S st r cl cnf) :
    Good S.E (fun o _ => o = ⟨400, .error .invalidRequest⟩) (serve S .token r) 8 st := by
  obtain ⟨hv, t, e1, e2⟩ := hs
  have hgr : grantOf r = some (.refreshToken v) := by
    simp [grantOf, hty, Oidc.grantAuthorizationCode, Oidc.grantClientCredentials, Oidc.grantDeviceCode,
      Oidc.grantRefreshToken, hr]
  have hval : TokenSvc.validateRequest (some (tokenMsg S r cl cnf)) = none := by
    simp [TokenSvc.validateRequest, tokenMsg, hi, hty, hgr, Oidc.grantAuthorizationCode, Oidc.grantClientCredentials,
      Oidc.grantDeviceCode, Oidc.grantRefreshToken]
  have hdisp : TokenSvc.dispatch S.E (some cl) (tokenMsg S r cl cnf) =
      TokenSvc.refreshToken S.E (some cl) (tokenMsg S r cl cnf) v := by
    simp [TokenSvc.dispatch, tokenMsg, hty, hgr, Oidc.grantAuthorizationCode, Oidc.grantClientCredentials,
      Oidc.grantDeviceCode, Oidc.grantRefreshToken]
  have hgt' : StringArray.contains cl.grantTypes Oidc.grantRefreshToken = true := (contains_iff _ _).2 hgt
  have key : ∀ P, Good S.E (fun o _ => o = ⟨400, .error .invalidRequest⟩)
      (TokenSvc.token S.E (some (tokenMsg S r cl cnf)) >>= tokenAnswer cnf.isSome) 2 { st with proofs := P } := by
    intro P
    refine good_bind (m := 2) (n := 0) (Ψ := fun a _ => a = TokenSvc.fail .invalidRequest)
      (good_token (n := 1) (c := cl) (cl := cl) hval rfl hcl ?_) ?_
    · rw [hdisp]
      simp only [TokenSvc.refreshToken, tokenMsg, hi, hurl, hv, hgt', if_false, not_true, Prog.call, bind_op, bind_ret,
        Good, exec, faulty, e1, found, e2, ne_eq, reduceCtorEq, not_false_eq_true, if_true, pure_eq]
      intro _ _
      trivial
    · rintro _ _ rfl
      rfl
  refine good_clientAuth (n := 6) hp ?_
  cases hb with
  | none hd hbound =>
    unfold tokenHandler
    simp only [hm, ne_eq, not_true, if_false, hd, hbound, Bool.false_eq_true, and_false, if_true]
    exact good_le (key st.proofs) (by omega)
  | key jkt hd hpr =>
    unfold tokenHandler
    simp only [hm, ne_eq, not_true, if_false, hd, false_and]
    refine good_bind (m := 4) (n := 2) (hm ▸ good_proof hpr hd hm) ?_
    rintro _ _ ⟨rfl, P, rfl⟩
    exact key P

/-! ### The device flow -/

theorem good_deviceAuthorize {r : Req} {cl c : Client} {st : St} (hp : Presents S.P st r cl) (hi : S.issuer ≠ [])
    (hm : r.method = g!"POST") (hid : r.formValue g!"client_id" ≠ []) (hc : st.clients (r.formValue g!"client_id") = some c)
    (hgt : MemFold g!"urn:ietf:params:oauth:grant-type:device_code" c.grantTypes) :
    Good S.E (fun o st' => ∃ dc uc sess ref exp, dc ≠ [] ∧ uc ≠ [] ∧
        o = ⟨200, .device dc uc (S.issuer ++ g!"/device") 120 5⟩ ∧ st'.clock = st.clock ∧
        st'.devIdx (devKey S.E S.issuer dc) = some (ref, exp) ∧ exp = st.clock + 120 * second ∧
        st'.heap[ref]? = some sess ∧ sess.client.isSome = true ∧ sess.expiresAt = 0 ∧
        sess.request = some { issuer := S.issuer, clientId := r.formValue g!"client_id", scope := optional (r.formValue g!"scope"), audience := optional (r.formValue g!"audience") })
      (serve S .deviceAuthorize r) 6 st := by
  have hgt' : StringArray.contains c.grantTypes Oidc.grantDeviceCode = true := (contains_iff _ _).2 hgt
  refine good_clientAuth (n := 4) hp ?_
  unfold deviceAuthzHandler
  simp only [hm, ne_eq, not_true, if_false, Device.authorize, hi, hid, Prog.call, bind_op, bind_ret, pure_eq, Good, exec,
    faulty, hc, found, hgt', gen, Bool.false_eq_true]
  intro _ _ dc hdc uc huc _ _
  refine ⟨dc, uc, _, st.heap.length, _, hdc, huc, rfl, trivial, if_pos rfl, rfl, List.getElem?_concat_length, rfl, rfl, rfl⟩

/-- The device code grant on a session without expiry. -/
theorem good_devicePoll {r : Req} {cl : Client} {st : St} {cnf : Option Cnf} {dc : Str} {ref exp : Nat} {sess : DeviceSession}
    {dr : DeviceAuthzReq} (hix : st.devIdx (devKey S.E S.issuer dc) = some (ref, exp)) (hlive : st.clock ≤ exp)
    (hheap : st.heap[ref]? = some sess) (hsc : sess.client.isSome = true) (h0 : sess.expiresAt = 0) (hsr : sess.request = some dr)
    (hown : dr.clientId = cl.clientId) (h1 : 0 < seconds st.clock) (hdc : dc ≠ [])
    (hp : Presents S.P st r cl) (hcl : st.clients cl.clientId = some cl)
    (hgt : MemFold g!"urn:ietf:params:oauth:grant-type:device_code" cl.grantTypes)
    (hi : S.issuer ≠ []) (hurl : S.E.parseRequestURI S.issuer = true) (hm : r.method = g!"POST")
    (hty : r.formValue g!"grant_type" = g!"urn:ietf:params:oauth:grant-type:device_code")
    (hr : r.formValue g!"device_code" = dc) (hb : Binding S st r cl cnf) :
    Good S.E (fun o _ => o = ⟨400, .error .tokenExpired⟩) (serve S .token r) 9 st := by
  have hgr : grantOf r = some (.deviceCode dc) := by
    unfold grantOf
    simp only [hty, hr]
    rw [if_neg (by decide), if_neg (by decide), if_pos (by decide)]
  have hval : TokenSvc.validateRequest (some (tokenMsg S r cl cnf)) = none := by
    simp only [TokenSvc.validateRequest, tokenMsg, hi, hty, hgr, if_false, Option.isNone_some, Bool.false_eq_true]
    rw [if_neg (by decide), if_neg (by decide), if_pos (by decide)]
  have hdisp : TokenSvc.dispatch S.E (some cl) (tokenMsg S r cl cnf) =
      TokenSvc.deviceCode S.E (some cl) (tokenMsg S r cl cnf) dc := by
    simp only [TokenSvc.dispatch, tokenMsg, hty, hgr]
    rw [if_neg (by decide), if_neg (by decide), if_pos (by decide)]
  have hgt' : StringArray.contains cl.grantTypes Oidc.grantDeviceCode = true := (contains_iff _ _).2 hgt
  have hlt : sess.expiresAt < Device.unix st.clock := by rw [h0]; exact h1
  have key : ∀ P, Good S.E (fun o _ => o = ⟨400, .error .tokenExpired⟩)
      (TokenSvc.token S.E (some (tokenMsg S r cl cnf)) >>= tokenAnswer cnf.isSome) 3 { st with proofs := P } := by
    intro P
    refine good_bind (m := 3) (n := 0) (Ψ := fun a _ => a = TokenSvc.fail .tokenExpired)
      (good_token (n := 2) (c := cl) (cl := cl) hval rfl hcl ?_) ?_
    · rw [hdisp]
      have hn : sess.client.isNone = false := by cases h : sess.client <;> simp_all
      simp only [TokenSvc.deviceCode, tokenMsg, hi, hurl, hdc, hgt', if_false, not_true, Prog.call, bind_op, bind_ret,
        Good, exec, faulty, hix, live, hlive, if_true, deref, hheap, Option.map_some, found, hsr, hn, hown, ne_eq,
        Bool.false_eq_true, hlt, pure_eq]
      intro _ _ _ _
      trivial
    · rintro _ _ rfl
      rfl
  refine good_clientAuth (n := 7) hp ?_
  cases hb with
  | none hd hbound =>
    unfold tokenHandler
    simp only [hm, ne_eq, not_true, if_false, hd, hbound, Bool.false_eq_true, and_false, if_true]
    exact good_le (key st.proofs) (by omega)
  | key jkt hd hpr =>
    unfold tokenHandler
    simp only [hm, ne_eq, not_true, if_false, hd, false_and]
    refine good_bind (m := 4) (n := 3) (hm ▸ good_proof hpr hd hm) ?_
    rintro _ _ ⟨rfl, P, rfl⟩
    exact key P

end Http
end Verif
