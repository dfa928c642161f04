import Verif.Proofs.Exchange
import Verif.Model.Resources
import Verif.Props.Tokens

/-! C110: tokens that are made from tokens. C57 for exchanges; C31 and C55 with the
shipped table of resources. -/
namespace Verif.Props
open Verif.Prog Verif.Store Verif.Spec Verif.TokenSvc
variable {E : Env}

/-- A token found in the store is the created one but for value and status. -/
theorem Keeps.facts {t x : Token} (h : Keeps t x) : t.metadata = x.metadata ∧ t.confirmation = x.confirmation ∧
    t.tokenType = x.tokenType ∧ t.tokenId = x.tokenId := by
  obtain ⟨h, _⟩ := h
  rw [← h]
  exact ⟨rfl, rfl, rfl, rfl⟩

theorem seconds_le {a b d : Nat} (h : a ≤ b + d * second) : seconds a ≤ seconds b + d := by
  rw [← seconds_add b d]
  exact Nat.div_le_div_right h

/-- **C110** (one step, partial). A token that is made by refreshing or exchanging the
token `u` has the subject, issuer and key binding of `u`; the request looked `u` up
before it was revoked and read the clock before `u` expired; if the request takes at
most `d` seconds, the token lives at most its lifetime plus `d` longer than `u`.
Missing: that it ends with `u`, see `C110_forever_violated` and `C110_revoke_violated`. -/
theorem C110_derived_partial (E : Env) (s : St) (ls : List Label) (hE : Empty s) (hK : NoKeyClash E (run E s ls))
    (hF : FreshTokens (run E s ls)) (m n : Nat) (u t : Token) (h : Derives (run E s ls) m u n t) :
    m < n ∧ ∃ (e : Entry) (mdu mdt : TokenMeta), (run E s ls).log[n]? = some e ∧ u.metadata = some mdu ∧
      t.metadata = some mdt ∧ mdt.subject = mdu.subject ∧ mdt.issuer = mdu.issuer ∧ t.confirmation = u.confirmation ∧
      t.status = .active ∧
      (∃ (l : Nat) (el : Entry), m < l ∧ l < n ∧ (run E s ls).log[l]? = some el ∧ el.tid = e.tid ∧
        ∀ (d : Nat) (ed : Entry) (i : Str), d < l → (run E s ls).log[d]? = some ed →
          ed.ev E ≠ ⟨.tkRevoke i u.tokenId, .ok ()⟩) ∧
      (∃ (r : Nat) (er : Entry), r < n ∧ (run E s ls).log[r]? = some er ∧ er.tid = e.tid ∧ er.cmd = .now ∧
        seconds er.time ≤ mdu.expiresAt) ∧
      ∀ d, Within (run E s ls) e.tid d → mdt.expiresAt ≤ mdu.expiresAt + lifeFrom u t + d := by
  obtain ⟨iss, e, q, hc, he, hcmd, hq, hh⟩ := h
  obtain ⟨q', c0, cl, hq', _, _, hm⟩ := entry_tkCreate he hcmd
  obtain ⟨th, h1, h2⟩ := hq
  obtain ⟨th', h1', h2'⟩ := hq'
  rw [h1] at h1'; cases h1'
  rw [h2] at h2'; cases h2'
  -- the lookup of the request found `u`
  have look : ∀ x, ⟨.tkGetVal q.issuer u.value, .ok (some x)⟩ ∈ callsOf E e.tid ((run E s ls).log.take n) →
      x.status = .active → ∃ (l : Nat) (el : Entry), (m < l ∧ l < n ∧ (run E s ls).log[l]? = some el ∧ el.tid = e.tid ∧
        ∀ (d : Nat) (ed : Entry) (i : Str), d < l → (run E s ls).log[d]? = some ed →
          ed.ev E ≠ ⟨.tkRevoke i u.tokenId, .ok ()⟩) ∧ Keeps u x := by
    intro x hx hst
    obtain ⟨l, el, g1, g2, g3, g4⟩ := mem_calls_take hx
    have g5 := Entry.tkGetVal_ok g4
    obtain ⟨g6, g7⟩ := found_unique hE hK hF hc g2 g5
    refine ⟨l, el, ⟨g6, g1, g2, g3, ?_⟩, g7⟩
    intro d ed i hd hed hrev
    obtain ⟨y, y1, y2⟩ := revoked_stays hE hK hF hc hed hrev g2 hd
    rw [g5] at y1; cases y1
    rw [hst] at y2; cases y2
  have late : ∀ {now now2 : Nat} {d : Nat}, ⟨.now, now⟩ ∈ callsOf E e.tid ((run E s ls).log.take n) →
      ⟨.now, now2⟩ ∈ callsOf E e.tid ((run E s ls).log.take n) → Within (run E s ls) e.tid d →
      seconds now2 ≤ seconds now + d := by
    intro now now2 d a b hw
    obtain ⟨_, e1, _, a2, a3, _, rfl⟩ := now_time a
    obtain ⟨_, e2, _, b2, b3, _, rfl⟩ := now_time b
    exact seconds_le (hw e1 (List.mem_of_getElem? a2) e2 (List.mem_of_getElem? b2) a3 b3)
  cases hm with
  | code g _ _ _ hg => rcases hh with hh | ⟨_, hh, _⟩ <;> rw [hg] at hh <;> cases hh
  | cc _ hg => rcases hh with hh | ⟨_, hh, _⟩ <;> rw [hg] at hh <;> cases hh
  | device _ _ _ _ _ _ _ hg => rcases hh with hh | ⟨_, hh, _⟩ <;> rw [hg] at hh <;> cases hh
  | refresh v rt md now _ hg _ hget hnow hst hty hmd hexp _ ht =>
    have hv : v = u.value := by
      rcases hh with hh | ⟨_, hh, _⟩ <;> rw [hg] at hh <;> cases hh
      rfl
    subst hv
    obtain ⟨l, el, hl, hk⟩ := look rt hget hst
    obtain ⟨k1, k2, k3, _⟩ := Keeps.facts hk
    obtain ⟨r, er, r1, r2, r3, r4, r5⟩ := now_time hnow
    have hr : ∃ (r : Nat) (er : Entry), r < n ∧ (run E s ls).log[r]? = some er ∧ er.tid = e.tid ∧ er.cmd = .now ∧
        seconds er.time ≤ md.expiresAt := ⟨r, er, r1, r2, r3, r4, by rw [r5]; exact hexp⟩
    have hu : u.tokenType = .refreshToken := k3.trans hty
    have hexp' : seconds now ≤ md.expiresAt := hexp
    refine ⟨by omega, e, md, ?_⟩
    rcases ht with ⟨now2, jti, v, _, hnow2, rfl⟩ | ⟨now2, jti, v, _, hnow2, rfl⟩
    · refine ⟨_, he, k1.trans hmd, rfl, rfl, rfl, k2.symm, rfl, ⟨l, el, hl⟩, hr, fun d hw => ?_⟩
      have := late hnow hnow2 hw
      have e1 : lifeFrom u { accessTokenSpec cl md rt.confirmation now2 jti with value := v } = 3600 := by
        simp [lifeFrom, hu, accessTokenSpec]
      rw [e1]
      show Device.unix (now2 + 3600 * 1000000000) ≤ _
      rw [seconds_add]; omega
    · refine ⟨_, he, k1.trans hmd, rfl, rfl, rfl, k2.symm, rfl, ⟨l, el, hl⟩, hr, fun d hw => ?_⟩
      have := late hnow hnow2 hw
      have e1 : lifeFrom u { refreshTokenSpec cl md rt.confirmation now2 jti with value := v } = 604800 := by
        simp [lifeFrom, hu, refreshTokenSpec]
      rw [e1]
      show Device.unix (now2 + 604800 * 1000000000) ≤ _
      rw [seconds_add]; omega
  | exchange g x md now now2 jti v aud hg _ hget hnow hnow2 _ hst hty hmd hexp =>
    have hv : g.subjectToken = u.value := by
      rcases hh with hh | ⟨_, hh, h'⟩ <;> rw [hg] at hh <;> cases hh
      exact h'
    rw [hv] at hget
    obtain ⟨l, el, hl, hk⟩ := look x hget hst
    obtain ⟨k1, k2, k3, _⟩ := Keeps.facts hk
    obtain ⟨r, er, r1, r2, r3, r4, r5⟩ := now_time hnow
    have hexp' : seconds now ≤ md.expiresAt := hexp
    refine ⟨by omega, e, md, _, he, k1.trans hmd, rfl, rfl, rfl, k2.symm, rfl, ⟨l, el, hl⟩,
      ⟨r, er, r1, r2, r3, r4, by rw [r5]; exact hexp⟩, fun d hw => ?_⟩
    have := late hnow hnow2 hw
    have e1 : ∀ t, lifeFrom u t = 60 := fun t => by simp [lifeFrom, k3.trans hty]
    rw [e1]
    show Device.unix (now2 + 60 * 1000000000) ≤ _
    rw [seconds_add]; omega

/-- A token made from an access token is an access token. -/
theorem derives_access {s : St} {ls : List Label} (hE : Empty s) (hK : NoKeyClash E (run E s ls))
    (hF : FreshTokens (run E s ls)) {m n : Nat} {u t : Token} (h : Derives (run E s ls) m u n t)
    (hu : u.tokenType = .accessToken) : t.tokenType = .accessToken := by
  obtain ⟨iss, e, q, hc, he, hcmd, hq, hh⟩ := h
  obtain ⟨q', c0, cl, hq', _, _, hm⟩ := entry_tkCreate he hcmd
  obtain ⟨th, h1, h2⟩ := hq
  obtain ⟨th', h1', h2'⟩ := hq'
  rw [h1] at h1'; cases h1'
  rw [h2] at h2'; cases h2'
  cases hm with
  | code g _ _ _ hg => rcases hh with hh | ⟨_, hh, _⟩ <;> rw [hg] at hh <;> cases hh
  | cc _ hg => rcases hh with hh | ⟨_, hh, _⟩ <;> rw [hg] at hh <;> cases hh
  | device _ _ _ _ _ _ _ hg => rcases hh with hh | ⟨_, hh, _⟩ <;> rw [hg] at hh <;> cases hh
  | refresh v rt md now _ hg _ hget hnow hst hty hmd hexp _ ht =>
    have hv : v = u.value := by
      rcases hh with hh | ⟨_, hh, _⟩ <;> rw [hg] at hh <;> cases hh
      rfl
    subst hv
    obtain ⟨l, el, _, g2, _, g4⟩ := mem_calls_take hget
    obtain ⟨_, g7⟩ := found_unique hE hK hF hc g2 (Entry.tkGetVal_ok g4)
    have := (Keeps.facts g7).2.2.1
    rw [hu, hty] at this; cases this
  | exchange => rfl

/-- **C110** (chains, partial). However a token came out of `k` exchanges, one after the
other, that took at most `d` seconds each: it has the subject, issuer and key binding of
the first token and ends at most `k` times `60 + d` seconds after it. -/
theorem C110_chain_partial (E : Env) (s : St) (ls : List Label) (hE : Empty s) (hK : NoKeyClash E (run E s ls))
    (hF : FreshTokens (run E s ls)) (d : Nat) (hd : ∀ i, Within (run E s ls) i d) (k m n : Nat) (u t : Token)
    (h : Exchanges (run E s ls) k m u n t) :
    m + k ≤ n ∧ ∃ mdu mdt, u.metadata = some mdu ∧ t.metadata = some mdt ∧ mdt.subject = mdu.subject ∧
      mdt.issuer = mdu.issuer ∧ t.confirmation = u.confirmation ∧ t.tokenType = .accessToken ∧
      mdt.expiresAt ≤ mdu.expiresAt + k * (60 + d) := by
  induction h with
  | none m iss u hc ha =>
    obtain ⟨md, hmd, _⟩ := create_issuer hE hK hc
    exact ⟨by omega, md, md, hmd, hmd, rfl, rfl, rfl, ha, by omega⟩
  | one k m u n t n' t' _ hd' ih =>
    obtain ⟨i0, mdu, mdt, i1, i2, i3, i4, i5, i6, i7⟩ := ih
    obtain ⟨j0, e, md1, md2, j1, j2, j3, j4, j5, j6, _, _, _, j7⟩ := C110_derived_partial E s ls hE hK hF n n' t t' hd'
    rw [i2] at j2; cases j2
    have j7 := j7 d (hd e.tid)
    have e1 : lifeFrom t t' = 60 := by simp [lifeFrom, i6]
    rw [e1] at j7
    refine ⟨by omega, mdu, md2, i1, j3, j4.trans i3, j5.trans i4, j6.trans i5, derives_access hE hK hF hd' i6, ?_⟩
    rw [Nat.add_mul, Nat.one_mul]
    omega

/-- **C57** (exchange). After any history: a stored, active, unexpired access token that a
client with the exchange grant presents, without audience or for a known resource, yields a
stored access token for the client, of the same issuer, user and key binding, with the asked
or else the same scope, for one minute, and no refresh token. -/
theorem C57_exchange (s : St) (ls : List Label) {q : TokenReq} {g : GrantExchange} {cl : Client} {x : Token}
    {md : TokenMeta} {aud : Str} (h : Exchangeable E (run E s ls).st q g cl x md aud) {chs : List Choice}
    (hund : Undisturbed chs) (hn : 8 ≤ chs.length) {n : Nat} (hlen : (run E s ls).threads.length = n) :
    ∃ b t y md', Answered (run E s (ls ++ serve n (.token (some q)) chs)) n (.token (some q)) (.token b) ∧ Succeeds b ∧
      b.accessToken = some t ∧ b.refreshToken = none ∧ t.tokenType = .accessToken ∧ t.value ≠ [] ∧
      Carries t md.issuer md.subject cl.clientId (q.scope.getD md.scope) aud x.confirmation ∧
      t.metadata = some md' ∧ md'.expiresAt = seconds (run E s ls).st.clock + 60 ∧
      (run E s (ls ++ serve n (.token (some q)) chs)).st.tokVal (tokenKey E q.issuer t.value) = some y ∧ Keeps t y := by
  obtain ⟨b, h1, ⟨a, jti, v, rfl, _, hv, rfl, hst⟩, _⟩ :=
    serve_goodOn (D := (· ≠ [])) (goodOn_exchange (fun _ h => h) h) hund hn hlen
  refine ⟨_, _, { exchangedSpec cl x md (q.scope.getD md.scope) (run E s ls).st.clock jti aud with
    value := tokenKey E q.issuer v }, _, h1, rfl, rfl, rfl, rfl, hv, ⟨⟨_, rfl, rfl, rfl, rfl, rfl, rfl⟩, rfl, rfl⟩, rfl, ?_, ?_, ⟨rfl, Or.inl rfl⟩⟩
  · exact seconds_add _ 60
  · rw [hst]; simp [create, upd]

/-- What a client does that only exchanges: its requests are exchanges, nothing fails, a
minute passes now and then. -/
def OnlyExchanges (cl : Client) (iss : Str) (draw : Nat → Str) : Label → Prop
  | .arrive r => ∃ q g, r = .token (some q) ∧ q.client = some cl ∧ q.issuer = iss ∧ q.grant = some (.tokenExchange g)
  | .run _ ch => ch.fault = .none ∧ ∃ k, ch.str = draw k
  | .tick d => d = 60 * second

/-- **C110 is violated**: after any history, a client with the exchange grant that holds an
active access token keeps itself in possession of one of the same user, for as long as it
likes, whatever the strings that are drawn. -/
theorem C110_forever_violated (s : St) (ls : List Label) (cl : Client) (iss : Str) (v : Str) (x : Token) (md : TokenMeta)
    (hcl : (run E s ls).st.clients cl.clientId = some cl)
    (hgr : MemFold g!"urn:ietf:params:oauth:grant-type:token-exchange" cl.grantTypes)
    (hiss : iss ≠ []) (hurl : E.parseRequestURI iss = true) (hv : v ≠ [])
    (hx : (run E s ls).st.tokVal (tokenKey E iss v) = some x) (hact : x.status = .active)
    (hty : x.tokenType = .accessToken) (hmd : x.metadata = some md)
    (hexp : seconds (run E s ls).st.clock ≤ md.expiresAt) (draw : Nat → Str) (hdraw : ∀ k, draw k ≠ []) (k : Nat) :
    ∃ ls' v' y md', (∀ l ∈ ls', OnlyExchanges cl iss draw l) ∧
      (run E s (ls ++ ls')).st.clock = (run E s ls).st.clock + k * (60 * second) ∧ v' ≠ [] ∧
      (run E s (ls ++ ls')).st.clients = (run E s ls).st.clients ∧
      (run E s (ls ++ ls')).st.tokVal (tokenKey E iss v') = some y ∧ y.status = .active ∧ y.tokenType = .accessToken ∧
      y.metadata = some md' ∧ md'.subject = md.subject ∧ seconds (run E s (ls ++ ls')).st.clock ≤ md'.expiresAt := by
  induction k with
  | zero => exact ⟨[], v, x, md, by simp, by simp, hv, by simp, by simpa using hx, hact, hty, hmd, rfl, by simpa using hexp⟩
  | succ k ih =>
    obtain ⟨ls', v', y, md', h1, h2, h3, h4, h5, h6, h7, h8, h9, h10⟩ := ih
    let q : TokenReq := { issuer := iss, client := some cl
                          grantType := g!"urn:ietf:params:oauth:grant-type:token-exchange"
                          grant := some (.tokenExchange { subjectToken := v'
                                                          subjectTokenType := g!"urn:ietf:params:oauth:token-type:access_token" }) }
    have hex : Exchangeable E (run E s (ls ++ ls')).st q _ cl y md' [] :=
      ⟨by rw [h4]; exact hcl, hgr, hiss, hurl, rfl, rfl, rfl, h3, rfl, h5, h6, h7, h8, h10, Or.inl ⟨rfl, rfl⟩⟩
    let chs : List Choice := List.replicate 8 { str := draw k }
    obtain ⟨_, _, ⟨a, jti, v'', _, _, hv'', _, hst⟩, _⟩ := serve_goodOn (D := (· = draw k)) (chs := chs)
      (goodOn_exchange (D := (· = draw k)) (fun str h => by rw [show str = draw k from h]; exact hdraw k) hex)
      (fun ch hch => by rw [List.eq_of_mem_replicate hch]; exact ⟨rfl, rfl⟩) (by simp [chs]) rfl
    refine ⟨ls' ++ (serve (run E s (ls ++ ls')).threads.length (.token (some q)) chs ++ [.tick (60 * second)]), v'',
      { exchangedSpec cl y md' (q.scope.getD md'.scope) (run E s (ls ++ ls')).st.clock jti [] with
        value := tokenKey E iss v'' }, _, ?_, ?_, ?_, ?_, ?_, rfl, rfl, rfl, h9, ?_⟩
    · intro l hl
      simp only [serve, List.mem_append, List.mem_cons, List.mem_map, List.not_mem_nil, or_false] at hl
      rcases hl with hl | (rfl | ⟨ch, hch, rfl⟩) | rfl
      · exact h1 l hl
      · exact ⟨q, _, rfl, rfl, rfl, rfl⟩
      · rw [List.eq_of_mem_replicate hch]; exact ⟨rfl, k, rfl⟩
      · exact rfl
    · rw [← List.append_assoc, ← List.append_assoc, run_tick, hst]
      simp only [create, h2, Nat.add_mul, Nat.one_mul]; omega
    · rw [hv'']; exact hdraw k
    · rw [← List.append_assoc, ← List.append_assoc, run_tick, hst]; exact h4
    · rw [← List.append_assoc, ← List.append_assoc, run_tick, hst]; simp [create, upd, q]
    · rw [← List.append_assoc, ← List.append_assoc, run_tick, hst]
      exact Nat.le_refl _

/-- **C31** with the shipped resources: an answered exchange carries exactly the asked
audience, which is one of the two names of the table. -/
theorem C31_shipped (E : Env) (s : St) (ls : List Label) (hR : s.resources = Resources.shipped) (i : Nat)
    (q : TokenReq) (g : GrantExchange) (a : TokenResp) (ha : Answered (run E s ls) i (.token (some q)) (.token a))
    (hg : q.grant = some (.tokenExchange g)) (t : Token) (ht : Returns a t) (u : Str) (hu : q.audience = some u) :
    (u = g!"urn:example:cooperation-context" ∨ u = g!"urn:example:backend-api") ∧
      ∃ md, t.metadata = some md ∧ md.audience = u := by
  obtain ⟨res, md, h1, h2, h3⟩ := (C31_exchange_audience_partial E q g u _ hg hu).1 a t ha.token ht
  obtain ⟨m, em, g1, _, g3⟩ := mem_callsOf_iff.1 h1
  have hr := (clients_const g1).2
  obtain ⟨tid, cmd, ⟨f, str⟩, pre⟩ := em
  simp only [Entry.ev, Sigma.mk.injEq] at g3
  obtain ⟨rfl, g3⟩ := g3
  simp only at hr
  have g4 : pre.resources u = some res := by
    cases f <;> simp [Entry.res, exec, faulty] at g3
    cases hp : pre.resources u <;> simp [hp, found] at g3
    simp [g3]
  rw [hr, hR] at g4
  simp only [Resources.shipped, Resources.table, List.lookup_cons, List.lookup_nil] at g4
  split at g4
  · rename_i h; simp at g4; subst g4
    have h := beq_iff_eq.1 h
    exact ⟨Or.inl h, md, h2, by rw [h3, h]⟩
  split at g4
  · rename_i h; simp at g4; subst g4
    have h := beq_iff_eq.1 h
    exact ⟨Or.inr h, md, h2, by rw [h3, h]⟩
  · simp at g4

theorem sound_of_noFault {e : Entry} (h : e.choice.fault = .none) :
    StoreContract (e.ev E) ∧ ResourceContract (e.ev E) := by
  obtain ⟨tid, cmd, ⟨f, str⟩, pre⟩ := e
  simp only at h
  subst h
  have hf : ∀ {α : Type} (o : Option α), found o ≠ .ok none ∧ found o ≠ .error .other := by
    intro α o; cases o <;> simp [found]
  cases cmd <;> simp [StoreContract, ResourceContract, Entry.ev, Entry.res, exec, faulty, hf]

/-- **C55** with stores that work: as long as no call is made to fail, no request whatsoever
crashes, in any history and with any interleaving. -/
theorem C55_working (E : Env) (s : St) (ls : List Label) (hf : ∀ e ∈ (run E s ls).log, e.choice.fault = .none)
    (i : Nat) (th : Thread) (h : (run E s ls).threads[i]? = some th) : th.prog ≠ .panic := by
  intro hp
  have hpath := (path_run E s ls).1 i th h
  rw [hp] at hpath
  have hall : ∀ ev ∈ callsOf E i (run E s ls).log, StoreContract ev ∧ ResourceContract ev := by
    intro ev hev
    obtain ⟨m, e, g1, _, rfl⟩ := mem_callsOf_iff.1 hev
    exact sound_of_noFault (hf e (List.mem_of_getElem? g1))
  exact C55_no_crash_partial E th.req _ (fun ev h => (hall ev h).1) (fun _ ev h => (hall ev h).2) hpath.toPanic

/-! ### Witnesses and non-vacuity -/

/-- An exchange of `v` for `v'`. -/
def exchangeRun (i : Nat) (v id v' : Str) : List Label :=
  .arrive (Demo.exchangeReq v) :: Demo.calls i [[], [], [], [], id, v', []]

/-- A code grant; the access token is exchanged, a minute later the new one again. -/
def exchangedTwice : List Label :=
  Demo.happy ++ exchangeRun 2 g!"at" g!"id-x1" g!"x1" ++ [.tick (60 * second)] ++ exchangeRun 3 g!"x1" g!"id-x2" g!"x2"

theorem derives_of {c : Conf} {m n : Nat} {u t : Token} {iss : Str} {v : Str} {i : Nat}
    (h1 : createdAt c m = some (Demo.issuer, u)) (h2 : createdAt c n = some (iss, t)) (h3 : u.value = v)
    (h4 : (c.log[n]?).map Entry.tid = some i) (h5 : c.threads[i]?.map Thread.req = some (Demo.exchangeReq v)) :
    Derives c m u n t := by
  obtain ⟨e, e1, e2⟩ := createdAt_some h2
  rw [e1] at h4
  simp at h4
  subst h4
  exact ⟨iss, e, _, createdAt_some h1, e1, e2, asked_of h5, Or.inr ⟨_, rfl, h3.symm⟩⟩

/-- C110: two exchanges, within no time each; the assumptions of the chain are met. -/
example : ∃ u t, Exchanges (run Demo.env Demo.store exchangedTwice) 2 9 u 27 t ∧ t.value = g!"x2" ∧
    (∀ i, Within (run Demo.env Demo.store exchangedTwice) i 0) ∧ Empty Demo.store ∧
    NoKeyClash Demo.env (run Demo.env Demo.store exchangedTwice) ∧ FreshTokens (run Demo.env Demo.store exchangedTwice) := by
  have key : ((createdAt (run Demo.env Demo.store exchangedTwice) 9).bind fun u =>
      (createdAt (run Demo.env Demo.store exchangedTwice) 20).bind fun x =>
      (createdAt (run Demo.env Demo.store exchangedTwice) 27).map fun t =>
        decide (u.1 = Demo.issuer ∧ u.2.value = g!"at" ∧ u.2.tokenType = .accessToken ∧ x.1 = Demo.issuer ∧
          x.2.value = g!"x1" ∧ t.2.value = g!"x2")) = some true := by decide +kernel
  have ht : (((run Demo.env Demo.store exchangedTwice).log.all fun e => (run Demo.env Demo.store exchangedTwice).log.all fun e' =>
      decide (e.tid = e'.tid → e'.time ≤ e.time + 0 * second)) = true) := by decide +kernel
  have h20 : ((run Demo.env Demo.store exchangedTwice).log[20]?).map Entry.tid = some 2 := by decide +kernel
  have h27 : ((run Demo.env Demo.store exchangedTwice).log[27]?).map Entry.tid = some 3 := by decide +kernel
  have r2 : (run Demo.env Demo.store exchangedTwice).threads[2]?.map Thread.req = some (Demo.exchangeReq g!"at") := by
    decide +kernel
  have r3 : (run Demo.env Demo.store exchangedTwice).threads[3]?.map Thread.req = some (Demo.exchangeReq g!"x1") := by
    decide +kernel
  have hK := Demo.noKeyClash_of (c := run Demo.env Demo.store exchangedTwice) (by decide +kernel)
  have hF := Demo.freshTokens_of (c := run Demo.env Demo.store exchangedTwice) (by decide +kernel)
  revert key ht h20 h27 r2 r3 hK hF
  generalize run Demo.env Demo.store exchangedTwice = c
  intro key ht h20 h27 r2 r3 hK hF
  simp only [Option.bind_eq_some_iff, Option.map_eq_some_iff, decide_eq_true_eq] at key
  obtain ⟨⟨i1, u⟩, a1, ⟨i2, x⟩, a2, ⟨i3, t⟩, a3, rfl, b1, b2, rfl, b3, b4⟩ := key
  refine ⟨u, t, .one 1 _ _ 20 x _ _ (.one 0 _ _ 9 u _ _ (.none 9 _ u (createdAt_some a1) b2)
    (derives_of a1 a2 b1 h20 r2)) (derives_of a2 a3 b3 h27 r3), b4, ?_, Demo.store_empty, hK, hF⟩
  intro i e he e' he' h1 h2
  exact of_decide_eq_true (List.all_eq_true.1 (List.all_eq_true.1 ht e he) e' he') (h1.trans h2.symm)

theorem happy_at : ∃ x md, (run Demo.env Demo.store Demo.happy).st.tokVal (tokenKey Demo.env Demo.issuer g!"at") = some x ∧
    x.status = .active ∧ x.tokenType = .accessToken ∧ x.metadata = some md ∧
    seconds (run Demo.env Demo.store Demo.happy).st.clock ≤ md.expiresAt := by
  have h : (((run Demo.env Demo.store Demo.happy).st.tokVal (tokenKey Demo.env Demo.issuer g!"at")).any fun x =>
      decide (x.status = .active ∧ x.tokenType = .accessToken) && x.metadata.any (fun md =>
        decide (seconds (run Demo.env Demo.store Demo.happy).st.clock ≤ md.expiresAt))) = true := by decide +kernel
  revert h
  generalize run Demo.env Demo.store Demo.happy = c
  intro h
  simp only [Option.any_eq_true, Bool.and_eq_true, decide_eq_true_eq] at h
  obtain ⟨x, h1, ⟨h2, h3⟩, md, h4, h5⟩ := h
  exact ⟨x, md, h1, h2, h3, h4, h5⟩

/-- C110 (violation), C57: the access token of the example redemption. -/
example (draw : Nat → Str) (hd : ∀ k, draw k ≠ []) : ∃ ls' v' y md',
    (∀ l ∈ ls', OnlyExchanges Demo.client Demo.issuer draw l) ∧
    (run Demo.env Demo.store (Demo.happy ++ ls')).st.tokVal (tokenKey Demo.env Demo.issuer v') = some y ∧
    y.status = .active ∧ y.metadata = some md' ∧
    seconds (run Demo.env Demo.store (Demo.happy ++ ls')).st.clock ≤ md'.expiresAt ∧
    (run Demo.env Demo.store (Demo.happy ++ ls')).st.clock =
      (run Demo.env Demo.store Demo.happy).st.clock + 525600 * (60 * second) := by
  obtain ⟨x, md, h1, h2, h3, h4, h5⟩ := happy_at
  obtain ⟨ls', v', y, md', g1, g2, _, _, g5, g6, _, g8, _, g10⟩ := C110_forever_violated Demo.store Demo.happy Demo.client
    Demo.issuer g!"at" x md (by decide +kernel) ((contains_iff _ _).1 (by decide)) (by decide) rfl (by decide) h1 h2 h3 h4 h5
    draw hd 525600
  exact ⟨ls', v', y, md', g1, g5, g6, g8, g10, g2⟩

/-- C57 (exchange): the access token of the example redemption. -/
example (chs : List Choice) (h : Undisturbed chs) (hn : 8 ≤ chs.length) : ∃ b,
    Answered (run Demo.env Demo.store (Demo.happy ++ serve 2 (Demo.exchangeReq g!"at") chs)) 2 (Demo.exchangeReq g!"at")
      (.token b) ∧ Succeeds b := by
  obtain ⟨x, md, h1, h2, h3, h4, h5⟩ := happy_at
  obtain ⟨b, _, _, _, g1, g2, _⟩ := C57_exchange (E := Demo.env) Demo.store Demo.happy (cl := Demo.client)
    (q := { issuer := Demo.issuer, client := some Demo.client
            grantType := g!"urn:ietf:params:oauth:grant-type:token-exchange"
            grant := some (.tokenExchange { subjectToken := g!"at"
                                            subjectTokenType := g!"urn:ietf:params:oauth:token-type:access_token" }) })
    (g := { subjectToken := g!"at", subjectTokenType := g!"urn:ietf:params:oauth:token-type:access_token" }) (aud := [])
    ⟨by decide +kernel, (contains_iff _ _).1 (by decide), by decide, rfl, rfl, rfl, rfl, by decide, rfl, h1, h2, h3, h4, h5,
      Or.inl ⟨rfl, rfl⟩⟩ h hn (n := 2) (by decide +kernel)
  exact ⟨b, g1, g2⟩

/-- The access token is exchanged, then revoked; then the new token is introspected. -/
def outlived : List Label :=
  Demo.happy ++ exchangeRun 2 g!"at" g!"id-x1" g!"x1" ++ Demo.revokeRun 3 g!"at" ++ Demo.introspectRun 4 g!"at" ++
    Demo.introspectRun 5 g!"x1"

/-- The refresh token is revoked; then the access token that came with it is introspected. -/
def halfRevoked : List Label := Demo.happy ++ Demo.revokeRun 2 g!"rt" ++ Demo.introspectRun 3 g!"rt" ++ Demo.introspectRun 4 g!"at"

/-- **C110 is violated**: revoking a token leaves active what was made from it, and revoking
a refresh token the access tokens of the same grant. -/
theorem C110_revoke_violated :
    ((Demo.introspection (run Demo.env Demo.store outlived) 4).bind (·.token)).map (·.status) = some .revoked ∧
    ((Demo.introspection (run Demo.env Demo.store outlived) 5).bind (·.token)).map (·.status) = some .active ∧
    (∃ u t, Derives (run Demo.env Demo.store outlived) 9 u 20 t ∧ u.value = g!"at" ∧ t.value = g!"x1") ∧
    ((Demo.introspection (run Demo.env Demo.store halfRevoked) 3).bind (·.token)).map (·.status) = some .revoked ∧
    ((Demo.introspection (run Demo.env Demo.store halfRevoked) 4).bind (·.token)).map (·.status) = some .active := by
  refine ⟨by decide +kernel, by decide +kernel, ?_, by decide +kernel, by decide +kernel⟩
  have key : ((createdAt (run Demo.env Demo.store outlived) 9).bind fun u =>
      (createdAt (run Demo.env Demo.store outlived) 20).map fun t =>
        decide (u.1 = Demo.issuer ∧ u.2.value = g!"at" ∧ t.2.value = g!"x1")) = some true := by decide +kernel
  have h20 : ((run Demo.env Demo.store outlived).log[20]?).map Entry.tid = some 2 := by decide +kernel
  have r2 : (run Demo.env Demo.store outlived).threads[2]?.map Thread.req = some (Demo.exchangeReq g!"at") := by
    decide +kernel
  revert key h20 r2
  generalize run Demo.env Demo.store outlived = c
  intro key h20 r2
  simp only [Option.bind_eq_some_iff, Option.map_eq_some_iff, decide_eq_true_eq] at key
  obtain ⟨⟨i1, u⟩, a1, ⟨i2, t⟩, a2, rfl, b1, b2⟩ := key
  exact ⟨u, t, derives_of a1 a2 b1 h20 r2, b1, b2⟩

/-- The issuer `https://asa` asked to exchange `t`: the key is that of `at` at `https://as`. -/
def crossExchange : List Label :=
  Demo.happy ++ .arrive (.token (some
    { issuer := g!"https://asa", client := some Demo.client
      grantType := g!"urn:ietf:params:oauth:grant-type:token-exchange"
      grant := some (.tokenExchange { subjectToken := g!"t"
                                      subjectTokenType := g!"urn:ietf:params:oauth:token-type:access_token" }) })) ::
    Demo.calls 2 [[], [], [], [], g!"id-x1", g!"x1", []]

/-- **C33 is violated** by exchanges, too: with a hash that has no collision, one issuer answers with a token that names
another issuer, and keeps it as its own. -/
theorem C33_exchange_violated : ∃ (E : Env) (s : St) (ls : List Label), Empty s ∧ Sequential 0 ls ∧ NoHashCollision E (run E s ls) ∧
    ∃ i q a t md, Answered (run E s ls) i (.token (some q)) (.token a) ∧ a.accessToken = some t ∧ t.metadata = some md ∧
      q.issuer = g!"https://asa" ∧ md.issuer = g!"https://as" ∧
      ∃ x, (run E s ls).st.tokVal (tokenKey E q.issuer t.value) = some x ∧ x.tokenId = t.tokenId ∧ x.metadata = some md ∧
        x.status = .active := by
  refine ⟨Demo.env, Demo.store, crossExchange, Demo.store_empty,
    by simp [crossExchange, Demo.happy, Demo.authorizeRun, Demo.redeemCalls, Demo.calls, Sequential], ?_, 2, ?_⟩
  · intro e _ e' _ k i n i' n' _ _ hk
    cases k <;> simpa [keyOf, Store.codeKey, Store.requestKey, Store.userKey, Store.devKey, Store.tokenKey,
      Demo.env] using hk
  · obtain ⟨q, a, h1, h2, h3⟩ := tokenAnswer_ex (c := run Demo.env Demo.store crossExchange) (i := 2)
      (fun q a => q.issuer = g!"https://asa" ∧ a.accessToken.any (fun t => t.metadata.any (fun md => decide (md.issuer = g!"https://as")) &&
        ((run Demo.env Demo.store crossExchange).st.tokVal (tokenKey Demo.env q.issuer t.value)).any fun x =>
          decide (x.tokenId = t.tokenId ∧ x.metadata = t.metadata ∧ x.status = .active)) = true) (by decide +kernel)
    simp only [Option.any_eq_true, Bool.and_eq_true, decide_eq_true_eq] at h3
    obtain ⟨t, g1, ⟨md, g2, g3⟩, x, g4, g5, g6, g7⟩ := h3
    exact ⟨q, a, t, md, h1, g1, g2, h2, g3, x, g4, g5, g6.trans g2, g7⟩

/-- The stores of the examples with the shipped resources. -/
def resourceStore : St := { Demo.store with resources := Resources.shipped }

/-- An exchange for one of the shipped resources. -/
def resourceRun : List Label :=
  Demo.happy ++ .arrive (.token (some
    { issuer := Demo.issuer, client := some Demo.client
      grantType := g!"urn:ietf:params:oauth:grant-type:token-exchange", audience := some g!"urn:example:backend-api"
      grant := some (.tokenExchange { subjectToken := g!"at"
                                      subjectTokenType := g!"urn:ietf:params:oauth:token-type:access_token" }) })) ::
    Demo.calls 2 [[], [], [], [], g!"id-x1", [], g!"x1", []]

/-- C31 (shipped), C55 (working): the exchange is answered, nothing fails. -/
example : resourceStore.resources = Resources.shipped ∧
    (∃ q a, Answered (run Demo.env resourceStore resourceRun) 2 (.token (some q)) (.token a) ∧
      q.audience = some g!"urn:example:backend-api" ∧ a.accessToken.isSome = true) ∧
    ∀ e ∈ (run Demo.env resourceStore resourceRun).log, e.choice.fault = .none := by
  refine ⟨rfl, tokenAnswer_ex (fun q a => q.audience = some g!"urn:example:backend-api" ∧ a.accessToken.isSome = true)
    (by decide +kernel), ?_⟩
  have h : ((run Demo.env resourceStore resourceRun).log.all fun e => decide (e.choice.fault = .none)) = true := by
    decide +kernel
  exact fun e he => of_decide_eq_true (List.all_eq_true.1 h e he)

end Verif.Props
