import Verif.Proofs.Tokens
import Verif.Proofs.DemoRun
import Verif.Props.Token
import Mathlib.Logic.Relation

/-!
Tokens over whole histories of the server (C21, C22, C25-C28, C33): any number of
requests in flight, any interleaving, any failure, any passage of time, starting
from stores without sessions and tokens.
-/
namespace Verif.Props
open Verif.Spec Verif.Prog Verif.TokenSvc Verif.Store

/-- **C21.** Every token that is ever in the store, under either index, was issued
at a clock reading of the request that created it and has exactly one of the three
lifetimes. -/
theorem C21_stored_lifetimes (E : Env) (s : St) (ls : List Label) (hE : Empty s) (k : Str) (x : Token)
    (hx : (run E s ls).st.tokVal k = some x ∨ (run E s ls).st.tokId k = some x) :
    ∃ (m n : Nat) (e en : Entry) (iss : Str) (t : Token), (run E s ls).log[m]? = some e ∧
      e.cmd = .tkCreate iss t ∧ Keeps t x ∧
      n < m ∧ (run E s ls).log[n]? = some en ∧ en.tid = e.tid ∧ en.cmd = .now ∧ LifetimeAt en.time x := by
  have hinv := (tokInv_run (E := E) hE ls).1
  have hf : FromCreate E (run E s ls).log x := by
    rcases hx with hx | hx
    · exact (hinv.1 k x hx).2
    · exact (hinv.2 k x hx).2
  obtain ⟨m, e, iss, t, h1, h2, _, h4⟩ := hf
  obtain ⟨q, c0, cl, _, _, _, hm⟩ := entry_tkCreate h1 h2
  obtain ⟨now, hnow, hl⟩ := mints_lifetime hm
  obtain ⟨n, en, g1, g2, g3, g4, g5⟩ := now_time hnow
  refine ⟨m, n, e, en, iss, t, h1, h2, h4, g1, g2, g3, g4, ?_⟩
  rw [g5]
  obtain ⟨md, l1, l2, l3⟩ := hl
  exact ⟨md, h4.metadata.trans l1, l2, by rw [h4.tokenType]; exact l3⟩

/-- **C21.** Likewise for every token handed to the store, even by requests that
are interrupted or whose creation the store refuses. -/
theorem C21_created_lifetimes (E : Env) (s : St) (ls : List Label) (m : Nat) (e : Entry) (iss : Str) (t : Token)
    (h1 : (run E s ls).log[m]? = some e) (h2 : e.cmd = .tkCreate iss t) :
    ∃ (n : Nat) (en : Entry), n < m ∧ (run E s ls).log[n]? = some en ∧ en.tid = e.tid ∧ en.cmd = .now ∧
      LifetimeAt en.time t := by
  obtain ⟨q, c0, cl, _, _, _, hm⟩ := entry_tkCreate h1 h2
  obtain ⟨now, hnow, hl⟩ := mints_lifetime hm
  obtain ⟨n, en, g1, g2, g3, g4, g5⟩ := now_time hnow
  exact ⟨n, en, g1, g2, g3, g4, by rw [g5]; exact hl⟩

/-- **C22.** In every history without key clash, a token is returned only after the
store acknowledged its creation, with its non-empty value and under the issuer of
the request, which is also the issuer named in the token. -/
theorem C22_stored_under_request_issuer (E : Env) (s : St) (ls : List Label) (hE : Empty s)
    (hK : NoKeyClash E (run E s ls)) (i : Nat) (q : TokenReq) (a : TokenResp)
    (h : Answered (run E s ls) i (.token (some q)) (.token a)) (t : Token) (ht : Returns a t) :
    t.value ≠ [] ∧ ⟨.tkCreate q.issuer t, .ok ()⟩ ∈ callsOf E i (run E s ls).log ∧
      ∃ md, t.metadata = some md ∧ md.issuer = q.issuer := by
  obtain ⟨h1, q', i', h2, h3, h4⟩ := C22_stored_before_returned E _ _ a h.token t ht
  simp at h2; subst h2
  have hi : i' = q.issuer := by
    rcases h4 with h4 | ⟨v, rt, md, hg, hget, hmd, rfl⟩
    · exact h4
    · obtain ⟨n, e, g1, _, g3⟩ := mem_callsOf_iff.1 hget
      obtain ⟨m, e0, t0, f1, f2, f3, f4, f5⟩ := token_origin' hE hK g1 g3
      obtain ⟨md0, k1, k2⟩ := create_issuer hE hK ⟨e0, f2, f3⟩
      rw [f5.metadata, k1] at hmd
      simp at hmd; subst hmd; exact k2
  subst hi
  refine ⟨h1, h3, ?_⟩
  obtain ⟨n, e, g1, _, g3⟩ := mem_callsOf_iff.1 h3
  exact create_issuer hE hK ⟨e, g1, Entry.cmd_eq g3⟩

/-- **C25.** Every token reachable by any chain of refreshes carries the issuer,
subject, client, scope, audience and proof-of-possession key of the token the
chain started from. -/
theorem C25_refresh_chain (E : Env) (s : St) (ls : List Label) (hE : Empty s) (hK : NoKeyClash E (run E s ls))
    (hF : FreshTokens (run E s ls)) (n : Nat) (iss : Str) (t0 t : Token) (h0 : Creates (run E s ls) n iss t0)
    (h : Relation.ReflTransGen (RefreshStep (run E s ls)) t0 t) : SameClaims t0 t := by
  induction h with
  | refl =>
    obtain ⟨md, h1, _⟩ := create_issuer hE hK h0
    exact ⟨rfl, md, md, h1, h1, rfl, rfl, rfl, rfl, rfl⟩
  | tail _ hstep ih =>
    rename_i t1 t2 _
    obtain ⟨k, k', e', q, iss', hc1, he', hcmd, hq, hg⟩ := hstep
    obtain ⟨q', c0, cl, hq', hc0, hcl, hm⟩ := entry_tkCreate he' hcmd
    have := hq.unique hq'
    simp at this; subst this
    cases hm with
    | refresh v rt md now _ hg' hreg hget hnow hst hty hmd hexp hown ht =>
      rw [hg] at hg'; simp at hg'; subst hg'
      obtain ⟨m, e1, hmn, g1, g2, g3⟩ := mem_calls_take hget
      obtain ⟨m0, e0, tx, f1, f2, f3, f4, f5⟩ := token_origin' hE hK g1 g3
      have hk : m0 = k := hF.values m0 k q.issuer tx t1 ⟨e0, f2, f3⟩ hc1 f4
      subst hk
      obtain ⟨ec, c1, c2⟩ := hc1
      rw [f2] at c1; cases c1
      rw [f3] at c2; cases c2
      have hmd' : t1.metadata = some md := by rw [← f5.metadata]; exact hmd
      have hs : SameClaims t1 t2 := by
        rcases ht with ⟨now', jti, v', _, _, rfl⟩ | ⟨now', jti, v', _, _, rfl⟩
        · exact ⟨f5.confirmation.symm, md, _, hmd', rfl, rfl, rfl, hown, rfl, rfl⟩
        · exact ⟨f5.confirmation.symm, md, _, hmd', rfl, rfl, rfl, hown, rfl, rfl⟩
      obtain ⟨a1, mda, mdb, a2, a3, a4, a5, a6, a7, a8⟩ := ih
      obtain ⟨b1, mdc, mdd, b2, b3, b4, b5, b6, b7, b8⟩ := hs
      rw [a3] at b2; simp at b2; subst b2
      exact ⟨a1.trans b1, mda, mdd, a2, b3, a4.trans b4, a5.trans b5, a6.trans b6, a7.trans b7, a8.trans b8⟩
    | code g s ar _ hg' hreg hget hdel hreq hok ho ht => rw [hg] at hg'; simp at hg'
    | cc _ hg' hreg hty ht => rw [hg] at hg'; simp at hg'
    | device dc ref s dreq sub now _ hg' hreg hget hnow hreq hcl hexp hst hsub ht => rw [hg] at hg'; simp at hg'
    | exchange g st md now now2 jti v aud hg' hreg hget hnow hnow2 hv hst hty hmd hexp => rw [hg] at hg'; simp at hg'

/-- After an acknowledged revocation (log position `d`) of the token designated by
`v` under `iss`: what later lookups, introspections, refreshes and exchanges yield. -/
structure Dead (E : Env) (c : Conf) (d : Nat) (iss v : Str) : Prop where
  /-- the store ends up with a revoked token under this value -/
  stored : ∃ x, c.st.tokVal (tokenKey E iss v) = some x ∧ x.status = .revoked
  /-- every later lookup finds a revoked token, unless the call fails -/
  lookup : ∀ (n : Nat) (e : Entry), d < n → c.log[n]? = some e → e.cmd = .tkGetVal iss v →
    (∃ x, e.ev E = ⟨.tkGetVal iss v, .ok (some x)⟩ ∧ x.status = .revoked) ∨
    (e.choice.fault ≠ .none ∧ e.ev E = ⟨.tkGetVal iss v, .error .other⟩)
  /-- a later introspection never reports it active -/
  introspect : ∀ j q a, q.issuer = iss → q.token = v → Answered c j (.introspect (some q)) (.introspect a) →
    (∀ (n : Nat) (e : Entry), c.log[n]? = some e → e.tid = j → e.cmd = .tkGetVal iss v → d < n) →
    a.goErr = true ∨ ∃ x, a.token = some x ∧ x.status = .revoked
  /-- a later refresh with it fails -/
  refresh : ∀ j q a, q.issuer = iss → q.grant = some (.refreshToken v) →
    Answered c j (.token (some q)) (.token a) →
    (∀ (n : Nat) (e : Entry), c.log[n]? = some e → e.tid = j → e.cmd = .tkGetVal iss v → d < n) → ¬ ReturnsToken a
  /-- a later exchange of it fails -/
  exchange : ∀ j q g a, q.issuer = iss → q.grant = some (.tokenExchange g) → g.subjectToken = v →
    Answered c j (.token (some q)) (.token a) →
    (∀ (n : Nat) (e : Entry), c.log[n]? = some e → e.tid = j → e.cmd = .tkGetVal iss v → d < n) → ¬ ReturnsToken a

theorem dead_of_revoked {E : Env} {s : St} (hE : Empty s) {ls : List Label} (hK : NoKeyClash E (run E s ls))
    (hF : FreshTokens (run E s ls)) {n d : Nat} {e ed : Entry} {i v i' : Str} {x : Token}
    (hn : (run E s ls).log[n]? = some e) (hev : e.ev E = ⟨.tkGetVal i v, .ok (some x)⟩) (hnd : n < d)
    (hd : (run E s ls).log[d]? = some ed) (hrev : ed.ev E = ⟨.tkRevoke i' x.tokenId, .ok ()⟩) :
    Dead E (run E s ls) d i v := by
  have hlook : ∀ (n : Nat) (e : Entry), d < n → (run E s ls).log[n]? = some e → e.cmd = .tkGetVal i v →
      (∃ x, e.ev E = ⟨.tkGetVal i v, .ok (some x)⟩ ∧ x.status = .revoked) ∨
      (e.choice.fault ≠ .none ∧ e.ev E = ⟨.tkGetVal i v, .error .other⟩) := by
    intro n' e' hdn hn' hc
    obtain ⟨y, hy1, hy2⟩ := (revoked_forever hE hK hF hn hev hnd hd hrev).1 n' e' hn' hdn
    obtain ⟨tid, cmd, ⟨f, str⟩, pre⟩ := e'
    cases hc
    simp only at hy1
    cases f with
    | none => left; exact ⟨y, by simp [Entry.ev, Entry.res, exec, faulty, hy1, found], hy2⟩
    | before => right; exact ⟨by simp, by simp [Entry.ev, Entry.res, exec, faulty]⟩
    | after => right; exact ⟨by simp, by simp [Entry.ev, Entry.res, exec, faulty]⟩
  have hbad : ∀ {j : Nat} {x : Token}, ⟨.tkGetVal i v, .ok (some x)⟩ ∈ callsOf E j (run E s ls).log →
      (∀ (n : Nat) (e : Entry), (run E s ls).log[n]? = some e → e.tid = j → e.cmd = .tkGetVal i v → d < n) →
      x.status = .revoked := by
    intro j x hm hlate
    obtain ⟨n', e', g1, g2, g3⟩ := mem_callsOf_iff.1 hm
    rcases hlook n' e' (hlate n' e' g1 g2 (Entry.cmd_eq g3)) g1 (Entry.cmd_eq g3) with ⟨y, h1, h2⟩ | ⟨_, h1⟩
    · rw [g3] at h1; simp at h1; subst h1; exact h2
    · rw [g3] at h1; simp at h1
  refine ⟨(revoked_forever hE hK hF hn hev hnd hd hrev).2, hlook, ?_, ?_, ?_⟩
  · rintro j q a rfl rfl ha hlate
    have hx := done_sound (introspect_looks E q) ha.introspect
    rw [List.nil_append] at hx
    rcases hx with hx | ⟨r, hr, hx⟩
    · exact Or.inl hx
    · obtain ⟨n', e', g1, g2, g3⟩ := mem_callsOf_iff.1 hr
      rcases hlook n' e' (hlate n' e' g1 g2 (Entry.cmd_eq g3)) g1 (Entry.cmd_eq g3) with ⟨y, h1, h2⟩ | ⟨_, h1⟩
      · rw [g3] at h1; simp at h1; subst h1
        exact Or.inr ⟨y, hx.1 y rfl, h2⟩
      · rw [g3] at h1; simp at h1; subst h1
        exact Or.inl (hx.2.1 rfl)
  · rintro j q a rfl hg ha hlate ht
    obtain ⟨c, cl, rt, md, now, _, _, hget, _, _, hst, _⟩ := C24_refresh_owner E q v _ a hg ha.token ht
    have := hbad hget hlate
    rw [hst] at this; simp at this
  · rintro j q g a rfl hg rfl ha hlate ht
    obtain ⟨c, cl, st, md, now, t, aud, sc, iat, _, _, hget, _, _, hst, _⟩ := C29_exchange E q g _ a hg ha.token ht
    have := hbad hget hlate
    rw [hst] at this; simp at this

/-- **C26.** When a refresh answers with a new refresh token, the presented one is
dead from some call of this request on. -/
theorem C26_rotated_token_is_dead (E : Env) (s : St) (ls : List Label) (hE : Empty s) (hK : NoKeyClash E (run E s ls))
    (hF : FreshTokens (run E s ls)) (i : Nat) (q : TokenReq) (v : Str) (a : TokenResp)
    (h : Answered (run E s ls) i (.token (some q)) (.token a)) (hg : q.grant = some (.refreshToken v))
    (hr : a.refreshToken.isSome = true) :
    ∃ (d : Nat) (ed : Entry), (run E s ls).log[d]? = some ed ∧ ed.tid = i ∧ Dead E (run E s ls) d q.issuer v := by
  rcases token_exec h.token with ⟨hr', _⟩ | ⟨q', c, cl, evs, h1, h2, h3, hs⟩
  · exact absurd (Or.inr hr) (refused_no_token hr')
  · simp at h1; subst h1
    cases hs with
    | refresh v' rt md now mint hg' ht' h =>
      rw [hg] at hg'; simp at hg'; subst hg'
      obtain ⟨_, _, _, _, f3, _⟩ := refreshTokens_facts h.tokens
      obtain ⟨n, e, d, ed, g1, g2, g3, g4, g5, g6, g7⟩ := calls_ordered (E := E) (i := i) (log := (run E s ls).log)
        (l1 := [⟨.clientsGet c.clientId, .ok (some cl)⟩]) (x := ⟨.tkGetVal q.issuer v, .ok (some rt)⟩)
        (y := ⟨.tkRevoke q.issuer rt.tokenId, .ok ()⟩) (by rw [h3, h.trace]; rfl) (by simp [f3 hr])
      exact ⟨d, ed, g5, g6, dead_of_revoked hE hK hF g2 g4 g1 g5 g7⟩
    | code g sess ar mint hg' ht' h => rw [hg] at hg'; simp at hg'
    | cc at_ hg' ht' h => rw [hg] at hg'; simp at hg'
    | device dc ref session dreq subject now mint hg' ht' h => rw [hg] at hg'; simp at hg'
    | exchange g st md now now2 jti v aud t look hg' ht' h => rw [hg] at hg'; simp at hg'

/-- **C27.** After a revocation request succeeded, the presented token is dead from
some call of this request on. -/
theorem C27_revocation_is_final (E : Env) (s : St) (ls : List Label) (hE : Empty s) (hK : NoKeyClash E (run E s ls))
    (hF : FreshTokens (run E s ls)) (i : Nat) (q : TokenRefReq) (a : RevokeResp)
    (h : Answered (run E s ls) i (.revoke (some q)) (.revoke a)) (hr : a.goErr = false) :
    ∃ (d : Nat) (ed : Entry), (run E s ls).log[d]? = some ed ∧ ed.tid = i ∧
      Dead E (run E s ls) d q.issuer q.token := by
  have hx := done_sound (revoke_calls E q) h.revoke
  rw [List.nil_append] at hx
  obtain ⟨c, cl, x, h1, h2⟩ := hx hr
  obtain ⟨n, e, d, ed, g1, g2, g3, g4, g5, g6, g7⟩ := calls_ordered (E := E) (i := i) (log := (run E s ls).log)
    (l1 := [⟨.clientsGet c.clientId, .ok cl⟩]) (x := ⟨.tkGetVal q.issuer q.token, .ok (some x)⟩)
    (y := ⟨.tkRevoke q.issuer x.tokenId, .ok ()⟩) (by rw [h2]; rfl) (by simp)
  exact ⟨d, ed, g5, g6, dead_of_revoked hE hK hF g2 g4 g1 g5 g7⟩

/-- **C27** for requests served one after the other: no later request obtains
tokens with the revoked one or sees it active. -/
theorem C27_sequential (E : Env) (s : St) (ls : List Label) (hE : Empty s) (hK : NoKeyClash E (run E s ls))
    (hF : FreshTokens (run E s ls)) (hS : Sequential 0 ls) (i : Nat) (q : TokenRefReq) (a : RevokeResp)
    (h : Answered (run E s ls) i (.revoke (some q)) (.revoke a)) (hr : a.goErr = false) (j : Nat) (hij : i < j) :
    (∀ qt at_, qt.issuer = q.issuer → qt.grant = some (.refreshToken q.token) →
      Answered (run E s ls) j (.token (some qt)) (.token at_) → ¬ ReturnsToken at_) ∧
    (∀ qt g at_, qt.issuer = q.issuer → qt.grant = some (.tokenExchange g) → g.subjectToken = q.token →
      Answered (run E s ls) j (.token (some qt)) (.token at_) → ¬ ReturnsToken at_) ∧
    (∀ qi ai, qi.issuer = q.issuer → qi.token = q.token →
      Answered (run E s ls) j (.introspect (some qi)) (.introspect ai) →
      ai.goErr = true ∨ ∃ x, ai.token = some x ∧ x.status = .revoked) := by
  obtain ⟨d, ed, h1, h2, h3⟩ := C27_revocation_is_final E s ls hE hK hF i q a h hr
  have hl : ∀ (n : Nat) (e : Entry), (run E s ls).log[n]? = some e → e.tid = j →
      e.cmd = .tkGetVal q.issuer q.token → d < n := by
    intro n e he ht _
    exact sequential_lt hS h1 he (by omega)
  exact ⟨fun qt at_ g1 g2 g3 => h3.refresh j qt at_ g1 g2 g3 hl,
    fun qt g at_ g1 g2 g3 g4 => h3.exchange j qt g at_ g1 g2 g3 g4 hl,
    fun qi ai g1 g2 g3 => h3.introspect j qi ai g1 g2 g3 hl⟩

/-! ### C33: issuers -/

/-- Objects of different issuers are kept apart if the hash does not collide and no
issuer is a proper prefix of another one. -/
theorem noKeyClash_of_prefixFree {E : Env} {c : Conf} (hH : NoHashCollision E c) (hP : IssuersPrefixFree c) :
    NoKeyClash E c := by
  intro e he e' he' k i n i' n' h1 h2 hk
  have hcat := hH e he e' he' k i n i' n' h1 h2 hk
  have hi : i = i' := by
    rcases List.append_eq_append_iff.1 hcat with ⟨w, h, _⟩ | ⟨w, h, _⟩
    · exact hP e he e' he' k i n i' n' h1 h2 ⟨w, h.symm⟩
    · exact (hP e' he' e he k i' n' i n h2 h1 ⟨w, h.symm⟩).symm
  subst hi
  exact ⟨rfl, by simpa using hcat⟩

/-- **C33** (partial). If the storage hash does not collide on the objects of this
history and no issuer is a proper prefix of another, then whatever is found under an
issuer was stored under this issuer and this name: codes, pushed requests, tokens.
Missing: the prefix assumption is needed, see `C33_violated`. -/
theorem C33_issuers_isolated_partial (E : Env) (s : St) (ls : List Label) (hE : Empty s)
    (hH : NoHashCollision E (run E s ls)) (hP : IssuersPrefixFree (run E s ls)) (n : Nat) (e : Entry)
    (he : (run E s ls).log[n]? = some e) :
    (∀ iss code cs, e.ev E = ⟨.csGet iss code, .ok (some cs)⟩ →
      ∃ (m : Nat) (e0 : Entry), m < n ∧ (run E s ls).log[m]? = some e0 ∧ e0.cmd = .csReg iss code cs) ∧
    (∀ iss uri r, e.ev E = ⟨.arGet iss uri, .ok (some r)⟩ →
      ∃ (m : Nat) (e0 : Entry), m < n ∧ (run E s ls).log[m]? = some e0 ∧ e0.cmd = .arReg iss uri r) ∧
    (∀ iss v x, e.ev E = ⟨.tkGetVal iss v, .ok (some x)⟩ →
      ∃ (m : Nat) (e0 : Entry) (t : Token), m < n ∧ (run E s ls).log[m]? = some e0 ∧ e0.cmd = .tkCreate iss t ∧
        t.value = v ∧ Keeps t x) := by
  have hK := noKeyClash_of_prefixFree hH hP
  refine ⟨?_, ?_, fun iss v x hev => token_origin' hE hK he hev⟩
  · intro iss code cs hev
    obtain ⟨m, e0, i', k', c1, c2, c3, c4, c5, c6⟩ := code_origin hE.codes he hev
    obtain ⟨rfl, rfl⟩ := noKeyClash_code hK c2 he (by rw [c3]; simp [cells]) (by rw [Entry.cmd_eq hev]; simp [cells]) c4
    exact ⟨m, e0, c1, c2, c3⟩
  · intro iss uri r hev
    obtain ⟨m, e0, i', k', c1, c2, c3, c4, c5, c6⟩ := request_origin hE.requests he hev
    obtain ⟨rfl, rfl⟩ := noKeyClash_request hK c2 he (by rw [c3]; simp [cells])
      (by rw [Entry.cmd_eq hev]; simp [cells]) c4
    exact ⟨m, e0, c1, c2, c3⟩

/-! ### Witnesses and non-vacuity -/

/-- A code grant; a refresh; much later a refresh with rotation; a refresh with the
new refresh token; its revocation; introspection of both; a refused refresh. -/
def life : List Label :=
  Demo.happy ++ Demo.refreshRun 2 g!"rt" g!"id2" g!"at2" ++
  .tick (604000 * second) :: Demo.rotateRun 3 g!"rt" g!"id3" g!"at3" g!"id4" g!"rt2" ++
  Demo.refreshRun 4 g!"rt2" g!"id5" g!"at5" ++ Demo.revokeRun 5 g!"rt2" ++ Demo.introspectRun 6 g!"rt2" ++
  Demo.introspectRun 7 g!"rt" ++ Demo.refreshRun 8 g!"rt2" g!"id6" g!"at6"

theorem life_sequential : Sequential 0 life := by
  simp [life, Demo.happy, Demo.authorizeRun, Demo.refreshRun, Demo.rotateRun, Demo.revokeRun, Demo.introspectRun,
    Demo.calls, Demo.redeemCalls, Sequential]

theorem life_ok : Empty Demo.store ∧ NoKeyClash Demo.env (run Demo.env Demo.store life) ∧
    FreshTokens (run Demo.env Demo.store life) :=
  ⟨Demo.store_empty, Demo.noKeyClash_of (by decide +kernel), Demo.freshTokens_of (by decide +kernel)⟩

/-- C21, C22: tokens are returned and stored in `life`. -/
example : (∃ q a, Answered (run Demo.env Demo.store life) 1 (.token (some q)) (.token a) ∧
      a.accessToken.isSome = true ∧ a.refreshToken.isSome = true) ∧
    ((run Demo.env Demo.store life).st.tokVal (tokenKey Demo.env Demo.issuer g!"at")).isSome = true ∧
    ((run Demo.env Demo.store life).st.tokId g!"id-at").isSome = true :=
  ⟨tokenAnswer_ex (fun _ a => a.accessToken.isSome = true ∧ a.refreshToken.isSome = true) (by decide +kernel),
    by decide +kernel, by decide +kernel⟩

/-- The token created by call number `n`. -/
def createdAt (c : Conf) (n : Nat) : Option (Str × Token) :=
  match c.log[n]?.map Entry.cmd with
  | some (.tkCreate i t) => some (i, t)
  | _ => none

theorem createdAt_some {c : Conf} {n : Nat} {i : Str} {t : Token} (h : createdAt c n = some (i, t)) :
    Creates c n i t := by
  unfold createdAt at h
  cases he : c.log[n]? with
  | none => rw [he] at h; simp at h
  | some e =>
    rw [he] at h
    simp only [Option.map_some] at h
    split at h
    · rename_i heq
      simp at h
      obtain ⟨rfl, rfl⟩ := h
      exact ⟨e, he, by simpa using heq⟩
    · simp at h

/-- C25: a chain of two refreshes, from the refresh token of the code grant through
the rotated one to an access token. -/
example : ∃ n iss t0 t, Creates (run Demo.env Demo.store life) n iss t0 ∧ t0.tokenType = .refreshToken ∧
    Relation.ReflTransGen (RefreshStep (run Demo.env Demo.store life)) t0 t ∧ t.value = g!"at5" := by
  have key : ((createdAt (run Demo.env Demo.store life) 13).bind fun x =>
    (createdAt (run Demo.env Demo.store life) 31).bind fun y =>
    (createdAt (run Demo.env Demo.store life) 39).map fun z =>
      decide (x.1 = Demo.issuer ∧ x.2.value = g!"rt" ∧ x.2.tokenType = .refreshToken ∧ y.1 = Demo.issuer ∧
        y.2.value = g!"rt2" ∧ z.2.value = g!"at5")) = some true := by decide +kernel
  obtain ⟨⟨i, t0⟩, h0, key⟩ := Option.bind_eq_some_iff.1 key
  obtain ⟨⟨i1, t1⟩, h1, key⟩ := Option.bind_eq_some_iff.1 key
  obtain ⟨⟨i2, t2⟩, h2, key⟩ := Option.map_eq_some_iff.1 key
  obtain ⟨rfl, k2, k3, rfl, k5, k6⟩ := of_decide_eq_true key
  have c0 := createdAt_some h0
  have c1 := createdAt_some h1
  have c2 := createdAt_some h2
  simp only at k2 k3 k5 k6
  refine ⟨13, _, t0, t2, c0, k3, ?_, k6⟩
  obtain ⟨e1, g1, g2⟩ := c1
  obtain ⟨e2, f1, f2⟩ := c2
  have t1id : e1.tid = 3 := by
    have : (run Demo.env Demo.store life).log[31]?.map Entry.tid = some 3 := by decide +kernel
    rw [g1] at this; simpa using this
  have t2id : e2.tid = 4 := by
    have : (run Demo.env Demo.store life).log[39]?.map Entry.tid = some 4 := by decide +kernel
    rw [f1] at this; simpa using this
  have s1 : RefreshStep (run Demo.env Demo.store life) t0 t1 :=
    ⟨13, 31, e1, ⟨Demo.issuer, some Demo.client, g!"refresh_token", none, none, none, some (.refreshToken g!"rt")⟩,
      _, c0, g1, g2, by rw [t1id]; exact asked_of (by decide +kernel), by rw [k2]⟩
  have s2 : RefreshStep (run Demo.env Demo.store life) t1 t2 :=
    ⟨31, 39, e2, ⟨Demo.issuer, some Demo.client, g!"refresh_token", none, none, none, some (.refreshToken g!"rt2")⟩,
      _, ⟨e1, g1, g2⟩, f1, f2, by rw [t2id]; exact asked_of (by decide +kernel), by rw [k5]⟩
  exact .tail (.tail .refl s1) s2

/-- C26: a refresh that rotates. -/
example : ∃ q a, Answered (run Demo.env Demo.store life) 3 (.token (some q)) (.token a) ∧
    q.grant = some (.refreshToken g!"rt") ∧ a.refreshToken.isSome = true :=
  tokenAnswer_ex (fun q a => q.grant = some (.refreshToken g!"rt") ∧ a.refreshToken.isSome = true) (by decide +kernel)

/-- **C26** (negation of rotation on every use). In a sequential history without
failures the same refresh token is used twice, and both requests obtain tokens. -/
theorem C26_reuse_without_rotation : ∃ (E : Env) (s : St) (ls : List Label), Empty s ∧ Sequential 0 ls ∧
    NoKeyClash E (run E s ls) ∧ FreshTokens (run E s ls) ∧ ∃ i j q q' a a' v, i ≠ j ∧
      Answered (run E s ls) i (.token (some q)) (.token a) ∧ q.grant = some (.refreshToken v) ∧ ReturnsToken a ∧
      Answered (run E s ls) j (.token (some q')) (.token a') ∧ q'.grant = some (.refreshToken v) ∧ ReturnsToken a' := by
  refine ⟨Demo.env, Demo.store, life, life_ok.1, life_sequential, life_ok.2.1, life_ok.2.2, 2, 3, ?_⟩
  obtain ⟨q, a, h1, h2, h3⟩ := tokenAnswer_ex (c := run Demo.env Demo.store life) (i := 2)
    (fun q a => q.grant = some (.refreshToken g!"rt") ∧ ReturnsToken a) (by decide +kernel)
  obtain ⟨q', a', h1', h2', h3'⟩ := tokenAnswer_ex (c := run Demo.env Demo.store life) (i := 3)
    (fun q a => q.grant = some (.refreshToken g!"rt") ∧ ReturnsToken a) (by decide +kernel)
  exact ⟨q, q', a, a', g!"rt", by decide, h1, h2, h3, h1', h2', h3'⟩

/-- The answer to revocation request number `i`. -/
def revocation (c : Conf) (i : Nat) : Option (Option TokenRefReq × RevokeResp) :=
  match c.threads[i]? with
  | some ⟨.revoke q, .ret (.revoke a)⟩ => some (q, a)
  | _ => none

theorem revocation_some {c : Conf} {i : Nat} {q : TokenRefReq}
    (h : (revocation c i).any (fun x => decide (x.1 = some q ∧ x.2.goErr = false)) = true) :
    ∃ a, Answered c i (.revoke (some q)) (.revoke a) ∧ a.goErr = false := by
  unfold revocation at h
  split at h
  · rename_i q' a heq
    simp at h
    obtain ⟨rfl, h⟩ := h
    exact ⟨a, ⟨_, heq, rfl, rfl⟩, h⟩
  · simp at h

/-- C27: a successful revocation, followed by further requests. -/
example : ∃ a, Answered (run Demo.env Demo.store life) 5 (.revoke (some (Demo.refReq g!"rt2"))) (.revoke a) ∧
    a.goErr = false := revocation_some (by decide +kernel)

/-- **C28** (partial). If generated ids and values never repeat, a successful
revocation leaves the token designated by the presented value revoked. Missing:
token ids are eight random characters and the only key of revocation; without the
assumption the claim fails, see `C28_violated`. -/
theorem C28_revokes_presented_partial (E : Env) (s : St) (ls : List Label) (hE : Empty s)
    (hK : NoKeyClash E (run E s ls)) (hF : FreshTokens (run E s ls)) (i : Nat) (q : TokenRefReq) (a : RevokeResp)
    (h : Answered (run E s ls) i (.revoke (some q)) (.revoke a)) (hr : a.goErr = false) :
    ∃ t x, (∃ n, Creates (run E s ls) n q.issuer t) ∧ t.value = q.token ∧ Keeps t x ∧
      (run E s ls).st.tokVal (tokenKey E q.issuer q.token) = some x ∧ x.status = .revoked := by
  obtain ⟨d, ed, _, _, hd⟩ := C27_revocation_is_final E s ls hE hK hF i q a h hr
  obtain ⟨x, hx, hs⟩ := hd.stored
  have hi := done_sound (revoke_calls E q) h.revoke
  rw [List.nil_append] at hi
  obtain ⟨c, cl, y, _, h2⟩ := hi hr
  have hm : ⟨.tkGetVal q.issuer q.token, .ok (some y)⟩ ∈ callsOf E i (run E s ls).log := by rw [h2]; simp
  obtain ⟨n, e, g1, _, g3⟩ := mem_callsOf_iff.1 hm
  obtain ⟨m, e0, t, _, f2, f3, f4, f5⟩ := token_origin' hE hK g1 g3
  obtain ⟨k1, m', e', i', t', k2, k3, k4, k5⟩ := (tokInv_run (E := E) hE ls).1.1 _ x hx
  have hk : tokenKey E i' t'.value = tokenKey E q.issuer t.value := by rw [← k4, k1, f4]
  obtain ⟨rfl, hv⟩ := noKeyClash_token hK k2 f2 (by rw [k3]; simp [cells]) (by rw [f3]; simp [cells]) hk
  exact ⟨t', x, ⟨m', e', k2, k3⟩, hv.trans f4, k5, hx, hs⟩

/-- Access and refresh token get the same id; then the access token is revoked and
introspected. -/
def sameId : List Label :=
  Demo.authorizeRun 0 ++ .arrive (.token (some Demo.codeReq)) ::
  Demo.calls 1 [[], [], [], [], g!"id", g!"at", [], [], g!"id", g!"rt", []] ++
  Demo.revokeRun 2 g!"at" ++ Demo.introspectRun 3 g!"at"

/-- **C28** (negation). In a sequential history without failures and with distinct
token values, two tokens share an id; the revocation of the first succeeds and
leaves it active. -/
theorem C28_violated : ∃ (E : Env) (s : St) (ls : List Label), Empty s ∧ Sequential 0 ls ∧
    NoKeyClash E (run E s ls) ∧ ∃ i j q a b x, i < j ∧ Answered (run E s ls) i (.revoke (some q)) (.revoke a) ∧
      a.goErr = false ∧ Answered (run E s ls) j (.introspect (some q)) (.introspect b) ∧ b.goErr = false ∧
      b.token = some x ∧ x.status = .active := by
  refine ⟨Demo.env, Demo.store, sameId, Demo.store_empty,
    by simp [sameId, Demo.authorizeRun, Demo.revokeRun, Demo.introspectRun, Demo.calls, Sequential],
    Demo.noKeyClash_of (by decide +kernel), 2, 3, Demo.refReq g!"at", ?_⟩
  obtain ⟨a, h1, h2⟩ := revocation_some (c := run Demo.env Demo.store sameId) (i := 2) (q := Demo.refReq g!"at")
    (by decide +kernel)
  have h3 : (Demo.introspection (run Demo.env Demo.store sameId) 3).any (fun b => b.goErr == false &&
    b.token.any fun x => x.status == .active) = true := by decide +kernel
  have h4 : (run Demo.env Demo.store sameId).threads[3]?.map Thread.req =
    some (.introspect (some (Demo.refReq g!"at"))) := by decide +kernel
  unfold Demo.introspection at h3
  split at h3
  · rename_i q b heq
    rw [heq] at h4
    simp at h4
    subst h4
    simp at h3
    obtain ⟨h3, h5⟩ := h3
    cases h6 : b.token with
    | none => rw [h6] at h5; simp at h5
    | some x =>
      rw [h6] at h5
      exact ⟨a, b, x, by decide, h1, h2, ⟨_, heq, rfl, rfl⟩, h3, h6, by simpa using h5⟩
  · simp at h3

/-- A code of the issuer `https://as` redeemed under the issuer `https://asc`. -/
def crossIssuer : List Label :=
  Demo.authorizeRun 0 ++ .arrive (.token (some { Demo.codeReq with
    issuer := g!"https://asc", grant := some (.authorizationCode ⟨g!"0de", g!"https://app/cb", Demo.verifier⟩) })) ::
  Demo.redeemCalls 1

/-- **C33** (negation). With a collision-free hash, in a sequential history without
failures, a code issued under one issuer yields tokens of another issuer. -/
theorem C33_violated : ∃ (E : Env) (s : St) (ls : List Label), Empty s ∧ Sequential 0 ls ∧
    NoHashCollision E (run E s ls) ∧ ∃ iss iss' code g q a, iss ≠ iss' ∧
      (∀ j i c, Authorizes (run E s ls) j i c → j = 0 ∧ i = iss ∧ c = code) ∧
      Redeems (run E s ls) 1 iss' g.code q g a ∧ ReturnsToken a := by
  refine ⟨Demo.env, Demo.store, crossIssuer, Demo.store_empty,
    by simp [crossIssuer, Demo.authorizeRun, Demo.redeemCalls, Demo.calls, Sequential], ?_, Demo.issuer,
    g!"https://asc", g!"c0de", ⟨g!"0de", g!"https://app/cb", Demo.verifier⟩, ?_⟩
  · intro e _ e' _ k i n i' n' _ _ hk
    cases k <;> simpa [keyOf, Store.codeKey, Store.requestKey, Store.userKey, Store.devKey, Store.tokenKey,
      Demo.env] using hk
  · obtain ⟨q, a, h1, h2⟩ := redeems_of (c := run Demo.env Demo.store crossIssuer) (i := 1) (iss := g!"https://asc")
      (g := ⟨g!"0de", g!"https://app/cb", Demo.verifier⟩) (fun _ a => ReturnsToken a) (by decide +kernel)
    refine ⟨q, a, by decide, ?_, h1, h2⟩
    rintro j i c ⟨_, e, he, hj, cs, hc⟩
    have h : ((run Demo.env Demo.store crossIssuer).log.all fun e => match e.cmd with
      | .csReg i c _ => e.tid == 0 && i == Demo.issuer && c == g!"c0de"
      | _ => true) = true := by decide +kernel
    have := List.all_eq_true.1 h e he
    rw [hc] at this
    simp at this
    exact ⟨hj.symm.trans this.1.1, this.1.2, this.2⟩

/-- C33: the hypotheses of the isolation theorem hold for `life`, where codes and
tokens are found. -/
example : Empty Demo.store ∧ NoHashCollision Demo.env (run Demo.env Demo.store life) ∧
    IssuersPrefixFree (run Demo.env Demo.store life) := by
  refine ⟨Demo.store_empty, ?_, ?_⟩
  · intro e _ e' _ k i n i' n' _ _ hk
    cases k <;> simpa [keyOf, Store.codeKey, Store.requestKey, Store.userKey, Store.devKey, Store.tokenKey,
      Demo.env] using hk
  · intro e he e' he' k i n i' n' h1 h2 _
    have h : ((run Demo.env Demo.store life).log.all fun e => (cells e.cmd).all fun x => x.2.1 == Demo.issuer) = true := by
      decide +kernel
    have a := List.all_eq_true.1 (List.all_eq_true.1 h e he) _ h1
    have b := List.all_eq_true.1 (List.all_eq_true.1 h e' he') _ h2
    simp at a b
    rw [a, b]

end Verif.Props
