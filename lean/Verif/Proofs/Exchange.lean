import Verif.Spec.Exchange
import Verif.Proofs.Tokens
import Verif.Proofs.HttpServe2

/-! Tokens made from tokens: lemmas for C57 and C110. -/
namespace Verif
open Verif.Prog Verif.Store Verif.Spec Verif.TokenSvc
variable {E : Env}

/-- After an acknowledged revocation, the revoked token is never found active again. -/
theorem revoked_stays {s : St} (hE : Empty s) {ls : List Label} (hK : NoKeyClash E (run E s ls))
    (hF : FreshTokens (run E s ls)) {m d : Nat} {ed : Entry} {i i' : Str} {t : Token} (hc : Creates (run E s ls) m i t)
    (hd : (run E s ls).log[d]? = some ed) (hrev : ed.ev E = ⟨.tkRevoke i' t.tokenId, .ok ()⟩) {n : Nat} {e : Entry}
    (hn : (run E s ls).log[n]? = some e) (hdn : d < n) :
    ∃ y, e.pre.tokVal (tokenKey E i t.value) = some y ∧ y.status = .revoked := by
  obtain ⟨x, hx, hp⟩ := Entry.tkRevoke_ok hrev
  obtain ⟨hid, m0, e0, i0, t0, h2, h3, h4, h5⟩ := ((tokInv_run (E := E) hE ls).2 d ed hd).2 _ _ hx
  obtain ⟨hm, h2⟩ := take_getElem? h2
  have hmm : m0 = m := hF.ids m0 m i0 i t0 t ⟨e0, h2, h3⟩ hc (by rw [← h5.tokenId, hid])
  subst hmm
  obtain ⟨ec, c1, c2⟩ := hc
  rw [h2] at c1; cases c1
  rw [h3] at c2; cases c2
  have hpost : ∃ y, (ed.post E).tokVal (tokenKey E i t.value) = some y ∧ y.status = .revoked := by
    rw [hp]
    simp only [Store.revoke, hx, h4, upd, if_true]
    exact ⟨_, rfl, rfl⟩
  refine (linked_run E s ls).keepBetween
      (P := fun st => ∃ y, st.tokVal (tokenKey E i t.value) = some y ∧ y.status = .revoked)
      (tokVal_timeless (fun tv => ∃ y, tv (tokenKey E i t.value) = some y ∧ y.status = .revoked)) hd hn hdn hpost ?_
  rintro k e1 hk1 _ hk3 ⟨y, hy1, hy2⟩
  rcases exec_tokens E e1.cmd e1.choice e1.pre with ⟨a, b⟩ | ⟨j, t', hc, hp'⟩ | ⟨j, id, t', hc, hid, hp'⟩
  · unfold Entry.post; rw [b]; exact ⟨y, hy1, hy2⟩
  · unfold Entry.post; rw [hp']; simp only [create, upd]; split
    · rename_i hkey
      exfalso
      obtain ⟨rfl, hv⟩ := noKeyClash_token hK hk3 h2 (by rw [hc]; simp [cells]) (by rw [h3]; simp [cells]) hkey.symm
      have := hF.values k m0 j t' t ⟨e1, hk3, hc⟩ ⟨e0, h2, h3⟩ hv
      omega
    · exact ⟨y, hy1, hy2⟩
  · unfold Entry.post; rw [hp']; simp only [Store.revoke, hid, upd]; split
    · exact ⟨_, rfl, rfl⟩
    · exact ⟨y, hy1, hy2⟩

/-- Serving a service request alone, with drawn strings that satisfy `D`. -/
theorem run_aloneOn {D : Str → Prop} {Φ : Resp → St → Prop} {r : Req} : ∀ {chs : List Choice} {p : Prog Resp} {n : Nat} {c : Conf}
    {ths : List Thread}, GoodOn E D Φ p n c.st → (∀ ch ∈ chs, ch.fault = .none ∧ D ch.str) → n ≤ chs.length →
    c.threads = ths ++ [⟨r, p⟩] →
    ∃ a, ((chs.map (Label.run ths.length)).foldl (step E) c).threads = ths ++ [⟨r, .ret a⟩] ∧
      Φ a ((chs.map (Label.run ths.length)).foldl (step E) c).st := by
  intro chs
  induction chs with
  | nil =>
    intro p n c ths h hu hn ht
    cases p with
    | ret a => exact ⟨a, ht, h⟩
    | panic => exact h.elim
    | op c k =>
      cases n with
      | zero => exact h.elim
      | succ n => simp at hn
  | cons ch chs ih =>
    intro p n c ths h hu hn ht
    simp only [List.map_cons, List.foldl_cons]
    have hget : c.threads[ths.length]? = some ⟨r, p⟩ := by rw [ht]; simp
    cases p with
    | ret a =>
      have hst : step E c (.run ths.length ch) = c := by simp [step, hget]
      rw [hst]
      exact ih (p := .ret a) (n := 0) h (fun x hx => hu x (by simp [hx])) (by omega) ht
    | panic => exact h.elim
    | op cm k =>
      cases n with
      | zero => exact h.elim
      | succ n =>
        obtain ⟨g1, g2⟩ := hu ch (by simp)
        obtain ⟨f, str⟩ := ch
        simp only at g1 g2
        subst g1
        refine ih (c := step E c (.run ths.length { str := str })) (n := n) (p := k (exec E cm { str := str } c.st).1)
          ?_ (fun x hx => hu x (by simp [hx])) (by simp at hn; omega) ?_
        · simp only [step, hget]
          exact h str g2
        · simp only [step, hget, Entry.res]
          rw [ht]; simp

theorem serve_goodOn {D : Str → Prop} {Φ : Resp → St → Prop} {s : St} {ls : List Label} {r : Req} {n : Nat} {chs : List Choice}
    (h : GoodOn E D Φ (handle E r) n (run E s ls).st) (hu : ∀ ch ∈ chs, ch.fault = .none ∧ D ch.str) (hn : n ≤ chs.length)
    {i : Nat} (hi : (run E s ls).threads.length = i) :
    ∃ a, Answered (run E s (ls ++ serve i r chs)) i r a ∧ Φ a (run E s (ls ++ serve i r chs)).st ∧
      (run E s (ls ++ serve i r chs)).threads.length = i + 1 := by
  subst hi
  obtain ⟨a, h1, h2⟩ := run_aloneOn (c := step E (run E s ls) (.arrive r)) (ths := (run E s ls).threads) (r := r) h hu hn rfl
  have hrun : run E s (ls ++ serve (run E s ls).threads.length r chs) =
      ((chs.map (Label.run (run E s ls).threads.length)).foldl (step E) (step E (run E s ls) (.arrive r))) := by
    rw [run_append]; rfl
  rw [hrun]
  exact ⟨a, ⟨_, by rw [h1]; simp; rfl, rfl, rfl⟩, h2, by rw [h1]; simp⟩

/-- What a request for an exchange needs to be answered with a token. -/
structure Exchangeable (E : Env) (st : St) (q : TokenReq) (g : GrantExchange) (cl : Client) (x : Token) (md : TokenMeta)
    (aud : Str) : Prop where
  client : st.clients cl.clientId = some cl
  grant : MemFold g!"urn:ietf:params:oauth:grant-type:token-exchange" cl.grantTypes
  issuer : q.issuer ≠ []
  url : E.parseRequestURI q.issuer = true
  from_ : q.client = some cl
  type : q.grantType = g!"urn:ietf:params:oauth:grant-type:token-exchange"
  payload : q.grant = some (.tokenExchange g)
  presented : g.subjectToken ≠ []
  kind : g.subjectTokenType = g!"urn:ietf:params:oauth:token-type:access_token"
  stored : st.tokVal (tokenKey E q.issuer g.subjectToken) = some x
  active : x.status = .active
  access : x.tokenType = .accessToken
  metadata : x.metadata = some md
  unexpired : seconds st.clock ≤ md.expiresAt
  audience : (q.audience = none ∧ aud = []) ∨
    ∃ u res, q.audience = some u ∧ st.resources u = some res ∧ aud = res.urn

/-- An undisturbed exchange. -/
theorem goodOn_exchange {D : Str → Prop} (hD : ∀ str, D str → str ≠ []) {st : St} {q : TokenReq} {g : GrantExchange} {cl : Client}
    {x : Token} {md : TokenMeta} {aud : Str} (h : Exchangeable E st q g cl x md aud) :
    GoodOn E D (fun b st' => ∃ a jti v, b = .token a ∧ D jti ∧ D v ∧
        a = { issuer := md.issuer
              accessToken := some { exchangedSpec cl x md (q.scope.getD md.scope) st.clock jti aud with value := v }
              issuedTokenType := some g!"urn:ietf:params:oauth:token-type:access_token"
              scope := if md.scope ≠ q.scope.getD md.scope then some (q.scope.getD md.scope) else none } ∧
        st' = create E q.issuer { exchangedSpec cl x md (q.scope.getD md.scope) st.clock jti aud with value := v } st)
      (handle E (.token (some q))) 8 st := by
  have hv : validateRequest (some q) = none := by
    simp [validateRequest, h.issuer, h.from_, h.type, h.payload, Oidc.grantAuthorizationCode, Oidc.grantClientCredentials,
      Oidc.grantDeviceCode, Oidc.grantRefreshToken, Oidc.grantTokenExchange]
  have hdisp : dispatch E (some cl) q = tokenExchange E (some cl) q g := by
    simp [dispatch, h.type, h.payload, Oidc.grantClientCredentials, Oidc.grantAuthorizationCode, Oidc.grantDeviceCode,
      Oidc.grantRefreshToken, Oidc.grantTokenExchange]
  have hgt : StringArray.contains cl.grantTypes Oidc.grantTokenExchange = true := (contains_iff _ _).2 h.grant
  have ht : g.subjectTokenType ≠ [] := by rw [h.kind]; decide
  have hk : g.subjectTokenType = Oidc.exchangeAccessToken := h.kind
  have he : ¬ md.expiresAt < Device.unix st.clock := Nat.not_lt.2 h.unexpired
  have fin : ∀ (n : Nat) (jti : Str), D jti → GoodOn E D (fun a st' => ∃ jti v, D jti ∧ D v ∧
      a = { issuer := md.issuer
            accessToken := some { exchangedSpec cl x md (q.scope.getD md.scope) st.clock jti aud with value := v }
            issuedTokenType := some g!"urn:ietf:params:oauth:token-type:access_token"
            scope := if md.scope ≠ q.scope.getD md.scope then some (q.scope.getD md.scope) else none } ∧
      st' = create E q.issuer { exchangedSpec cl x md (q.scope.getD md.scope) st.clock jti aud with value := v } st)
      (exchangeFinish q md (q.scope.getD md.scope) (exchangedSpec cl x md (q.scope.getD md.scope) st.clock jti aud)) (n + 2) st := by
    intro n jti hj
    unfold exchangeFinish
    simp only [Prog.call, bind_op, bind_ret, pure_eq, GoodOn, exec, gen]
    intro v hv
    simp only [hD v hv, if_false, GoodOn]
    intro _ _
    exact ⟨jti, v, hj, hv, rfl, rfl⟩
  refine goodOn_bind (m := 8) (n := 0) (f := fun b => Prog.ret (Resp.token b)) (goodOn_token (n := 7) hv h.from_ h.client
    (Φ := fun a st' => ∃ jti v, D jti ∧ D v ∧
      a = { issuer := md.issuer
            accessToken := some { exchangedSpec cl x md (q.scope.getD md.scope) st.clock jti aud with value := v }
            issuedTokenType := some g!"urn:ietf:params:oauth:token-type:access_token"
            scope := if md.scope ≠ q.scope.getD md.scope then some (q.scope.getD md.scope) else none } ∧
      st' = create E q.issuer { exchangedSpec cl x md (q.scope.getD md.scope) st.clock jti aud with value := v } st) ?_)
    (fun a s' ⟨jti, v, h1, h2, h3, h4⟩ => ⟨a, jti, v, rfl, h1, h2, h3, h4⟩)
  simp only [hdisp, tokenExchange, h.issuer, h.url, h.presented, hgt, hk, show Oidc.exchangeAccessToken ≠ [] by decide, if_false,
    not_true, ne_eq, Prog.call, bind_op, bind_ret, GoodOn, exec, faulty, h.stored, found, h.active, h.access, h.metadata, he]
  intro _ _ _ _
  unfold exchangeBuild
  simp only [Prog.call, bind_op, bind_ret, GoodOn, exec]
  intro _ _ jti hj
  rcases h.audience with ⟨ha, rfl⟩ | ⟨u, res, ha, hr, rfl⟩
  · simp only [ha]
    exact fin 1 jti hj
  · simp only [ha, GoodOn, exec, faulty, hr, found]
    intro _ _
    exact fin 0 jti hj

end Verif
