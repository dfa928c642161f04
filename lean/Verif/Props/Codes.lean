import Verif.Proofs.Codes
import Verif.Proofs.DemoRun

/-!
Authorization codes and pushed requests over whole histories of the server
(C04-C12, C14, C15): any number of requests in flight, any interleaving of their
storage calls, any failure, any passage of time, starting from stores without
sessions. `Sequential` histories serve one request after the other.
-/
namespace Verif.Props
open Verif.Spec Verif.Prog Verif.TokenSvc Verif.Store

/-- **C04.** In a sequential history, successful redemptions of a code can be
matched one-to-one with authorization requests that handed out that code: a code
is redeemed at most once per time it was handed out. -/
theorem C04_redeemed_once (E : Env) (s : St) (ls : List Label) (hE : Empty s) (hs : Sequential 0 ls)
    (hK : NoKeyClash E (run E s ls)) (iss code : Str) :
    ∃ f : Nat → Nat,
      (∀ i q g a, Redeems (run E s ls) i iss code q g a → Authorizes (run E s ls) (f i) iss code) ∧
      (∀ i q g a j q' g' a', Redeems (run E s ls) i iss code q g a → Redeems (run E s ls) j iss code q' g' a' →
        f i = f j → i = j) := by
  -- the last storage before the lookup of request `i`
  have key : ∀ i, (∃ q g a, Redeems (run E s ls) i iss code q g a) →
      ∃ k, ∃ (n : Nat) (e : Entry) (d : Nat) (ed : Entry) (m : Nat) (e0 : Entry) (cs : CodeSession),
        k = e0.tid ∧ m < n ∧ n < d ∧
        (run E s ls).log[n]? = some e ∧ e.tid = i ∧
        (run E s ls).log[d]? = some ed ∧ ed.tid = i ∧ ed.ev E = ⟨.csDel iss code, .ok ()⟩ ∧
        (run E s ls).log[m]? = some e0 ∧ e0.cmd = .csReg iss code cs ∧
        (∀ j e', m < j → j < n → (run E s ls).log[j]? = some e' →
          (e'.post E).codes (codeKey E iss code) = some (cs, e0.time + 60 * second)) := by
    rintro i ⟨q, g, a, h⟩
    obtain ⟨c0, cl, evs, cs, ar, mint, n, e, d, ed, h1, h2, h3, h4, h5, h6, h7, h8, h9, h10⟩ := redeems_calls h
    obtain ⟨m, e0, i', k', a1, a2, a3, a4, a5, a6⟩ := code_origin hE.codes h4 h6
    have hcl := noKeyClash_code hK a2 h4 (by rw [a3]; simp [cells]) (by rw [Entry.cmd_eq h6]; simp [cells]) a4
    obtain ⟨rfl, rfl⟩ := hcl
    exact ⟨e0.tid, n, e, d, ed, m, e0, cs, rfl, a1, h10, h4, h5, h7, h8, h9, a2, a3, a6⟩
  refine ⟨fun i => open Classical in if h : ∃ q g a, Redeems (run E s ls) i iss code q g a then
    Classical.choose (key i h) else 0, ?_, ?_⟩
  · intro i q g a h
    have hex : ∃ q g a, Redeems (run E s ls) i iss code q g a := ⟨q, g, a, h⟩
    simp only [hex, dif_pos]
    obtain ⟨n, e, d, ed, m, e0, cs, hk, _, _, _, _, _, _, _, b1, b2, _⟩ := Classical.choose_spec (key i hex)
    obtain ⟨q', r, eff, cl, hq, _⟩ := entry_csReg b1 b2
    rw [hk]
    exact ⟨⟨_, hq⟩, e0, List.mem_of_getElem? b1, rfl, cs, b2⟩
  · -- an earlier redemption's deletion separates the two storages
    have lt : ∀ i j, (hi : ∃ q g a, Redeems (run E s ls) i iss code q g a) →
        (hj : ∃ q g a, Redeems (run E s ls) j iss code q g a) →
        Classical.choose (key i hi) = Classical.choose (key j hj) → ¬ i < j := by
      intro i j hi hj heq hlt
      obtain ⟨n, e, d, ed, m, e0, cs, hk, a1, a2, a3, a4, a5, a6, a7, a8, a9, _⟩ := Classical.choose_spec (key i hi)
      obtain ⟨n', e', d', ed', m', e0', cs', hk', b1, b2, b3, b4, b5, b6, b7, b8, b9, b10⟩ :=
        Classical.choose_spec (key j hj)
      obtain ⟨q, r, eff, cl, hq, _⟩ := entry_csReg a8 a9
      have hmm : m = m' := most_unique (S := isReg) hq (most_map (most_authorize E _)) a8 b8 rfl
        (by rw [← hk', ← heq, hk]) (by rw [a9]; rfl) (by rw [b9]; rfl)
      subst hmm
      have hdn : d < n' := sequential_lt hs a5 b3 (by rw [a6, b4]; exact hlt)
      have := b10 d ed (by omega) hdn a5
      rw [Entry.csDel_ok a7] at this
      simp at this
    intro i q g a j q' g' a' h h' heq
    have hi : ∃ q g a, Redeems (run E s ls) i iss code q g a := ⟨q, g, a, h⟩
    have hj : ∃ q g a, Redeems (run E s ls) j iss code q g a := ⟨q', g', a', h'⟩
    simp only [hi, hj, dif_pos] at heq
    rcases Nat.lt_trichotomy i j with h1 | h1 | h1
    · exact absurd h1 (lt i j hi hj heq)
    · exact h1
    · exact absurd h1 (lt j i hj hi heq.symm)

/-- **C04**, the usual case: a code handed out by only one authorization request
is redeemed by at most one token request. -/
theorem C04_unique_code_single_use (E : Env) (s : St) (ls : List Label) (hE : Empty s) (hs : Sequential 0 ls)
    (hK : NoKeyClash E (run E s ls)) (iss code : Str)
    (h1 : ∀ j j', Authorizes (run E s ls) j iss code → Authorizes (run E s ls) j' iss code → j = j')
    (i j : Nat) (q q' : TokenReq) (g g' : GrantCode) (a a' : TokenResp)
    (hi : Redeems (run E s ls) i iss code q g a) (hj : Redeems (run E s ls) j iss code q' g' a') : i = j := by
  obtain ⟨f, f1, f2⟩ := C04_redeemed_once E s ls hE hs hK iss code
  exact f2 i q g a j q' g' a' hi hj (h1 _ _ (f1 i q g a hi) (f1 j q' g' a' hj))

/-- **C06.** Any interleaving: once the deletion of a code's session has been
acknowledged (log position `d`), a token request whose lookup of that code comes
later is refused and obtains nothing, with `invalid_grant` unless the lookup call
itself failed; except when an authorization stored the code again in between. -/
theorem C06_consumed_code_is_dead (E : Env) (s : St) (ls : List Label) (hK : NoKeyClash E (run E s ls))
    (iss code : Str) (d n : Nat) (ed e : Entry)
    (hd : (run E s ls).log[d]? = some ed) (hdel : ed.ev E = ⟨.csDel iss code, .ok ()⟩)
    (hdn : d < n) (hn : (run E s ls).log[n]? = some e) (hget : e.cmd = .csGet iss code)
    (hno : ∀ (m : Nat) (e0 : Entry) (cs : CodeSession), d < m → m < n → (run E s ls).log[m]? = some e0 →
      e0.cmd ≠ .csReg iss code cs) :
    (∃ err, e.ev E = ⟨.csGet iss code, .error err⟩) ∧
    ∀ q a, Answered (run E s ls) e.tid (.token q) (.token a) →
      a.goErr = true ∧ ¬ ReturnsToken a ∧
      (e.choice.fault = .none → a.error = some ⟨.invalidGrant, none⟩) := by
  have hev : ∃ err, e.ev E = ⟨.csGet iss code, .error err⟩ := by
    obtain ⟨r, hr⟩ : ∃ r, e.ev E = ⟨.csGet iss code, r⟩ := by
      obtain ⟨tid, cmd, ch, pre⟩ := e
      cases hget
      exact ⟨_, rfl⟩
    rcases r with err | (_ | cs)
    · exact ⟨err, hr⟩
    · have := Entry.contract E e
      rw [hr] at this
      simp [StoreContract] at this
    · obtain ⟨m, e0, i, k, a1, a2, a3, a4, a5⟩ := code_restored hdn hd hn hdel hr rfl
      have hcl := noKeyClash_code hK a3 hn (by rw [a4]; simp [cells]) (by rw [hget]; simp [cells]) a5
      obtain ⟨rfl, rfl⟩ := hcl
      exact absurd a4 (hno m e0 cs a1 a2 a3)
  refine ⟨hev, ?_⟩
  obtain ⟨err, hev⟩ := hev
  intro q a ha
  have hmem : e.ev E ∈ callsOf E e.tid (run E s ls).log := mem_callsOf (List.mem_of_getElem? hn) rfl
  rw [hev] at hmem
  have := done_sound (token_csGet_error E q) ha.token
  rw [List.nil_append] at this
  have hf := this iss code err hmem
  subst hf
  refine ⟨rfl, by simp [ReturnsToken, fail], ?_⟩
  intro hfault
  have : err = .notFound := by
    obtain ⟨tid, cmd, ⟨f, str⟩, pre⟩ := e
    simp only at hfault hget
    subst hfault; subst hget
    simp only [Entry.ev, Entry.res, exec, faulty, Sigma.mk.injEq, heq_eq_eq, true_and] at hev
    unfold found at hev
    split at hev
    · simpa using hev.symm
    · simp at hev
  simp [fail, this]

/-- **C05** (partial). Any interleaving: two requests that redeem a code handed out
by one authorization overlap in time, each looking the session up before the other
has deleted it. Missing: that this cannot happen; `C05_violated` shows that it can. -/
theorem C05_double_redemption_overlaps_partial (E : Env) (s : St) (ls : List Label) (hE : Empty s)
    (hK : NoKeyClash E (run E s ls)) (iss code : Str)
    (h1 : ∀ j j', Authorizes (run E s ls) j iss code → Authorizes (run E s ls) j' iss code → j = j')
    (i j : Nat) (q q' : TokenReq) (g g' : GrantCode) (a a' : TokenResp)
    (hi : Redeems (run E s ls) i iss code q g a) (hj : Redeems (run E s ls) j iss code q' g' a') :
    ∃ (n d n' d' : Nat) (e ed e' ed' : Entry) (cs cs' : CodeSession),
      (run E s ls).log[n]? = some e ∧ e.tid = i ∧ e.ev E = ⟨.csGet iss code, .ok (some cs)⟩ ∧
      (run E s ls).log[d]? = some ed ∧ ed.tid = i ∧ ed.ev E = ⟨.csDel iss code, .ok ()⟩ ∧
      (run E s ls).log[n']? = some e' ∧ e'.tid = j ∧ e'.ev E = ⟨.csGet iss code, .ok (some cs')⟩ ∧
      (run E s ls).log[d']? = some ed' ∧ ed'.tid = j ∧ ed'.ev E = ⟨.csDel iss code, .ok ()⟩ ∧
      n < d' ∧ n' < d := by
  obtain ⟨_, _, _, cs, _, _, n, e, d, ed, _, _, _, a1, a2, a3, a4, a5, a6, a7⟩ := redeems_calls hi
  obtain ⟨_, _, _, cs', _, _, n', e', d', ed', _, _, _, b1, b2, b3, b4, b5, b6, b7⟩ := redeems_calls hj
  -- a lookup cannot follow a deletion: the single storage would be on both sides of it
  have key : ∀ {n d n' : Nat} {e ed e' : Entry} {cs cs' : CodeSession}, n < d →
      (run E s ls).log[n]? = some e → e.ev E = ⟨.csGet iss code, .ok (some cs)⟩ →
      (run E s ls).log[d]? = some ed → ed.ev E = ⟨.csDel iss code, .ok ()⟩ →
      (run E s ls).log[n']? = some e' → e'.ev E = ⟨.csGet iss code, .ok (some cs')⟩ → n' < d := by
    intro n d n' e ed e' cs cs' hnd c1 c2 c3 c4 c5 c6
    rcases Nat.lt_trichotomy n' d with h | h | h
    · exact h
    · subst h
      rw [c3] at c5; cases c5
      rw [c4] at c6; simp at c6
    · exfalso
      obtain ⟨m, e0, i0, k0, d1, d2, d3, d4, _⟩ := code_origin hE.codes c1 c2
      obtain ⟨rfl, rfl⟩ := noKeyClash_code hK d2 c1 (by rw [d3]; simp [cells]) (by rw [Entry.cmd_eq c2]; simp [cells]) d4
      obtain ⟨m', e0', i1, k1, f1, f2, f3, f4, f5⟩ := code_restored h c3 c5 c4 c6 rfl
      obtain ⟨rfl, rfl⟩ := noKeyClash_code hK f3 c5 (by rw [f4]; simp [cells]) (by rw [Entry.cmd_eq c6]; simp [cells]) f5
      obtain ⟨q1, _, _, _, hq1, _⟩ := entry_csReg d2 d3
      obtain ⟨q2, _, _, _, hq2, _⟩ := entry_csReg f3 f4
      have ht := h1 _ _ ⟨⟨_, hq1⟩, e0, List.mem_of_getElem? d2, rfl, _, d3⟩
        ⟨⟨_, hq2⟩, e0', List.mem_of_getElem? f3, rfl, _, f4⟩
      have := most_unique (S := isReg) hq1 (most_map (most_authorize E _)) d2 f3 rfl ht.symm
        (by rw [d3]; rfl) (by rw [f4]; rfl)
      omega
  exact ⟨n, d, n', d', e, ed, e', ed', cs, cs', a1, a2, a3, a4, a5, a6, b1, b2, b3, b4, b5, b6,
    key b7 b1 b3 b4 b6 a1 a3, key a7 a1 a3 a4 a6 b1 b3⟩

/-- **C11.** Every answered token request that found the session of a code had
asked the store to delete it right after finding it; the code is gone afterwards
whenever the store acknowledged that, and otherwise the answer is `server_error`.
In particular a wrong redirect URI or verifier (`invalid_grant`) has consumed the
code, so the guess cannot be retried: later lookups fail (C06). -/
theorem C11_attempt_consumes_code (E : Env) (s : St) (ls : List Label) (hE : Empty s) (n : Nat) (e : Entry)
    (iss code : Str) (cs : CodeSession) (hn : (run E s ls).log[n]? = some e)
    (hget : e.ev E = ⟨.csGet iss code, .ok (some cs)⟩) (q : Option TokenReq) (a : TokenResp)
    (ha : Answered (run E s ls) e.tid (.token q) (.token a)) :
    ∃ (d : Nat) (ed : Entry) (r : SRes Unit), n < d ∧ (run E s ls).log[d]? = some ed ∧ ed.tid = e.tid ∧
      ed.ev E = ⟨.csDel iss code, r⟩ ∧
      (r = .ok () ∧ (ed.post E).codes (codeKey E iss code) = none ∨ a = fail .serverError) := by
  obtain ⟨m, e0, i, k, a1, a2, a3, a4, a5, a6⟩ := code_origin hE.codes hn hget
  obtain ⟨q', r, eff, cl', b1, b2, b3, b4, b5, b6, b7, b8, b9, b10⟩ := entry_csReg a2 a3
  have hmem : e.ev E ∈ callsOf E e.tid (run E s ls).log := mem_callsOf (List.mem_of_getElem? hn) rfl
  rw [hget] at hmem
  have hdone := done_sound (token_deletesFound E q) ha.token
  rw [List.nil_append] at hdone
  obtain ⟨ev0, res, rest, hshape, hrest, hfail⟩ := hdone iss code cs hmem (by rw [b10]; rfl)
  have i2 : (callsOf E e.tid (run E s ls).log)[2]? = some ⟨.csDel iss code, res⟩ := by rw [hshape]; rfl
  obtain ⟨d, ed, d1, d2, d3, d4⟩ := callsOf_index i2
  refine ⟨d, ed, res, ?_, d1, d2, d3, ?_⟩
  · -- the lookup is the only one, so it comes first
    have hpos := callsOf_take_getElem? (E := E) hn rfl
    rw [hget] at hpos
    generalize hp : (callsOf E e.tid ((run E s ls).log.take n)).length = p at hpos
    have hp1 : p < 2 := by
      rcases Nat.lt_or_ge p 2 with h | h
      · exact h
      · exfalso
        rw [hshape] at hpos
        obtain ⟨x, rfl⟩ : ∃ x, p = x + 2 := ⟨p - 2, by omega⟩
        cases x with
        | zero => simp at hpos
        | succ x =>
          have := hrest _ (List.mem_of_getElem? (by simpa using hpos))
          simp [noGet] at this
    exact callsOf_lt hp d4 hp1
  · cases res with
    | ok u => left; exact ⟨rfl, Entry.csDel_ok d3⟩
    | error err => right; exact hfail (by simp)


/-- **C07.** A redemption succeeds only if its lookup of the session came at most
60 seconds after an authorization had stored the code. -/
theorem C07_code_expires (E : Env) (s : St) (ls : List Label) (hE : Empty s) (hK : NoKeyClash E (run E s ls))
    (i : Nat) (iss code : Str) (q : TokenReq) (g : GrantCode) (a : TokenResp)
    (h : Redeems (run E s ls) i iss code q g a) :
    ∃ (m n : Nat) (e0 e : Entry) (cs : CodeSession), m < n ∧
      (run E s ls).log[m]? = some e0 ∧ e0.cmd = .csReg iss code cs ∧ Authorizes (run E s ls) e0.tid iss code ∧
      (run E s ls).log[n]? = some e ∧ e.tid = i ∧ e.ev E = ⟨.csGet iss code, .ok (some cs)⟩ ∧
      e.time ≤ e0.time + 60 * second := by
  obtain ⟨c0, cl, evs, cs, ar, mint, _, _, _, n, e, m, e0, h1, h2, h3, h4, h5, h6, h7, q', sub, hc, _⟩ :=
    redeems_origin hE.codes hE.requests hK h
  exact ⟨m, n, e0, e, cs, h1, h5, h6, ⟨⟨_, hc.asked⟩, e0, List.mem_of_getElem? h5, rfl, cs, h6⟩, h2, h3, h4, h7⟩

/-- **C07.** The lifetime announced with every code is 60 seconds. -/
theorem C07_announced_lifetime (E : Env) (s : St) (ls : List Label) (i : Nat) (q : Option AuthorizeReq)
    (a : AuthorizeResp) (h : Answered (run E s ls) i (.authorize q) (.authorize a)) (hi : Issued a) :
    a.expiresIn = 60 := by
  have := done_sound (Authorization.authorize_done E q) h.authorize
  simp only [List.nil_append] at this
  rcases this with ⟨_, q', r, _, cl, n, eff, h1, _, h4, h5⟩ | ⟨hn, _⟩
  case inr => exact absurd hi hn
  have hm : ⟨.csReg q'.issuer a.code eff, .ok n⟩ ∈ callsOf E i (run E s ls).log := by
    have : ⟨.csReg q'.issuer a.code eff, .ok n⟩ ∈ (callsOf E i (run E s ls).log).filter storesSession := by
      rw [h4]; exact List.mem_cons_self ..
    exact (List.mem_filter.1 this).1
  obtain ⟨m, e, _, _, hev⟩ := mem_callsOf_iff.1 hm
  have := (Entry.csReg_ok hev).1
  rw [h5]; exact this

/-- **C08.** A redemption succeeds only with a verifier of 43 to 128 bytes whose
SHA-256, base64url encoded, is the challenge of the authorization request as
submitted (directly or pushed) that produced the code. -/
theorem C08_pkce (E : Env) (s : St) (ls : List Label) (hE : Empty s) (hK : NoKeyClash E (run E s ls))
    (i : Nat) (iss code : Str) (q : TokenReq) (g : GrantCode) (a : TokenResp)
    (h : Redeems (run E s ls) i iss code q g a) :
    ∃ j aq sub eff, CodeFor (run E s ls) j iss code aq sub eff ∧
      43 ≤ g.codeVerifier.length ∧ g.codeVerifier.length ≤ 128 ∧
      sub.codeChallengeMethod = g!"S256" ∧ sub.codeChallenge = Go.b64 (E.sha256 g.codeVerifier) := by
  obtain ⟨c0, cl, evs, cs, ar, mint, _, _, hg, n, e, m, e0, h1, h2, h3, h4, h5, h6, h7, q', sub, hc, _⟩ :=
    redeems_origin hE.codes hE.requests hK h
  refine ⟨_, q', sub, ar, hc, hg.minLen, hg.maxLen, ?_, ?_⟩
  · rw [← hc.kept]; exact hg.checks.method
  · rw [← hc.kept]; exact hg.checks.pkce.symm

/-- **C09.** A redemption succeeds only with exactly the redirect URI of the
authorization request as submitted, and one registered (up to letter case) for the
redeeming client as the store knows it. -/
theorem C09_redirect_uri (E : Env) (s : St) (ls : List Label) (hE : Empty s) (hK : NoKeyClash E (run E s ls))
    (i : Nat) (iss code : Str) (q : TokenReq) (g : GrantCode) (a : TokenResp)
    (h : Redeems (run E s ls) i iss code q g a) :
    ∃ j aq sub eff c0 cl, CodeFor (run E s ls) j iss code aq sub eff ∧ sub.redirectUri = g.redirectUri ∧
      q.client = some c0 ∧ ⟨.clientsGet c0.clientId, .ok (some cl)⟩ ∈ callsOf E i (run E s ls).log ∧
      MemFold g.redirectUri cl.redirectUris := by
  obtain ⟨c0, cl, evs, cs, ar, mint, g1, g2, hg, n, e, m, e0, h1, h2, h3, h4, h5, h6, h7, q', sub, hc, _⟩ :=
    redeems_origin hE.codes hE.requests hK h
  refine ⟨_, q', sub, ar, c0, cl, hc, ?_, g1, by rw [g2]; exact List.mem_cons_self .., hg.checks.registered⟩
  rw [← hc.kept]; exact hg.checks.redirect

/-- **C10** (partial). If the redirect URI of the authorization request is
registered for its own client only, then only this client can redeem the code, and
the tokens carry its id. Missing: the assumption; `C10_violated` shows that it is needed. -/
theorem C10_client_binding_partial (E : Env) (s : St) (ls : List Label) (hE : Empty s)
    (hK : NoKeyClash E (run E s ls)) (i : Nat) (iss code : Str) (q : TokenReq) (g : GrantCode) (a : TokenResp)
    (h : Redeems (run E s ls) i iss code q g a)
    (hu : ∀ id id' cl cl', s.clients id = some cl → s.clients id' = some cl' →
      MemFold g.redirectUri cl.redirectUris → MemFold g.redirectUri cl'.redirectUris → id = id')
    (hid : ∀ id cl, s.clients id = some cl → cl.clientId = id) :
    ∃ j aq sub eff c0, CodeFor (run E s ls) j iss code aq sub eff ∧
      q.client = some c0 ∧ c0.clientId = sub.clientId ∧
      ∀ t, Returns a t → ∃ md, t.metadata = some md ∧ md.clientId = sub.clientId := by
  obtain ⟨c0, cl, evs, cs, ar, mint, g1, g2, hg, n, e, m, e0, h1, h2, h3, h4, h5, h6, h7, q', sub, hc, hcs⟩ :=
    redeems_origin hE.codes hE.requests hK h
  obtain ⟨q2, r, eff, cl', b1, _, _, _, b5, b6, b7, b8, _, b10⟩ := entry_csReg h5 h6
  have hcl : s.clients c0.clientId = some cl := client_found (by rw [g2]; exact List.mem_cons_self ..)
  have hcl' : s.clients r.clientId = some cl' := by
    have hsub : callsOf E e0.tid ((run E s ls).log.take m) ⊆ callsOf E e0.tid (run E s ls).log := by
      intro x hx
      have := List.take_append_drop m (run E s ls).log
      rw [← this, callsOf_append]
      exact List.mem_append_left _ hx
    exact client_found (hsub b7)
  have hra : ar = eff := by have := hg.request; rw [b10] at this; simpa using this.symm
  subst hra
  have k1 := b6.rest
  have hrid : r.clientId = ar.clientId := by rw [← k1]
  have hruri : r.redirectUri = ar.redirectUri := by rw [← k1]
  have hsid : sub.clientId = ar.clientId := by rw [← hc.kept]
  have hids : c0.clientId = r.clientId := by
    refine hu _ _ _ _ hcl hcl' hg.checks.registered ?_
    have := b8.redirectUri
    rw [hruri, hg.checks.redirect] at this
    exact this
  refine ⟨_, q', sub, ar, c0, hc, g1, by rw [hids, hrid, hsid], ?_⟩
  intro t ht
  obtain ⟨⟨md, f1, f2, f3, f4, _⟩, _, _⟩ := ((codeTokens_facts hg.tokens).2.2.2.2.2.2.2 t ht).2.2
  refine ⟨md, f1, ?_⟩
  rw [f4, hid _ _ hcl, hids, hrid, hsid]

/-- **C12.** Every token obtained from a code carries the subject, scope and
audience of the session an authorization stored for that code (the subject of that
authorization, the audience as submitted), the issuer and proof-of-possession key
of the token request and the id of the redeeming client. -/
theorem C12_code_token_claims (E : Env) (s : St) (ls : List Label) (hE : Empty s) (hK : NoKeyClash E (run E s ls))
    (i : Nat) (iss code : Str) (q : TokenReq) (g : GrantCode) (a : TokenResp)
    (h : Redeems (run E s ls) i iss code q g a) :
    ∃ j aq sub eff c0 cl, CodeFor (run E s ls) j iss code aq sub eff ∧
      q.client = some c0 ∧ ⟨.clientsGet c0.clientId, .ok (some cl)⟩ ∈ callsOf E i (run E s ls).log ∧
      (∀ w, IsWord w eff.scope → IsWord w sub.scope) ∧
      ∀ t, Returns a t → Carries t iss aq.subject cl.clientId eff.scope sub.audience q.tokenConfirmation := by
  obtain ⟨c0, cl, evs, cs, ar, mint, g1, g2, hg, n, e, m, e0, h1, h2, h3, h4, h5, h6, h7, q', sub, hc, hcs⟩ :=
    redeems_origin hE.codes hE.requests hK h
  refine ⟨_, q', sub, ar, c0, cl, hc, g1, by rw [g2]; exact List.mem_cons_self .., ?_, ?_⟩
  · obtain ⟨r, hs, he⟩ := hc.submitted
    intro w hw
    have := he.scopeSub w hw
    cases hs with
    | direct _ _ _ => exact this
    | pushed r0 _ _ uri k p _ _ _ _ _ hp _ => exact hp.scopeSub w this
  · intro t ht
    have := ((codeTokens_facts hg.tokens).2.2.2.2.2.2.2 t ht).2.2
    rw [hcs, h.2.1] at this
    rw [← hc.kept]; exact this

/-- **C14** (partial). A refresh token comes out of the code flow only if the
authorization request as submitted asked for `prompt=consent`, or listed
`offline_access` at least twice. Missing: the second alternative should be
impossible; `C14_violated` shows it is not. -/
theorem C14_offline_needs_consent_partial (E : Env) (s : St) (ls : List Label) (hE : Empty s)
    (hK : NoKeyClash E (run E s ls)) (i : Nat) (iss code : Str) (q : TokenReq) (g : GrantCode) (a : TokenResp)
    (h : Redeems (run E s ls) i iss code q g a) (hr : a.refreshToken.isSome = true) :
    ∃ j aq sub eff, CodeFor (run E s ls) j iss code aq sub eff ∧
      (sub.prompt = some g!"consent" ∨ 2 ≤ wordCount g!"offline_access" sub.scope) := by
  obtain ⟨c0, cl, evs, cs, ar, mint, g1, g2, hg, n, e, m, e0, h1, h2, h3, h4, h5, h6, h7, q', sub, hc, hcs⟩ :=
    redeems_origin hE.codes hE.requests hK h
  refine ⟨_, q', sub, ar, hc, ?_⟩
  obtain ⟨ho, hf⟩ := (codeTokens_facts hg.tokens).2.2.2.2.1.1 hr
  obtain ⟨r, hs, he⟩ := hc.submitted
  by_contra hcon
  rw [not_or] at hcon
  obtain ⟨hp, hw⟩ := hcon
  have sub_of : ∀ {x y : AuthzRequest} {w : Str}, Effective x y → HasWord w y.scope → HasWord w x.scope := by
    rintro x y w he ⟨v, hv, hsame⟩
    exact ⟨v, he.scopeSub v hv, hsame⟩
  cases hs with
  | direct _ _ _ => exact he.scopeOffline hp (sub_of he ho) (by omega) hf
  | pushed r0 _ _ uri k p _ _ _ _ _ hpu _ =>
    exact hpu.scopeOffline hp (sub_of hpu (sub_of he ho)) (by omega) (sub_of he hf)


/-- **C15** (verbatim). An authorization request that refers to a pushed request and
is answered with a code got a session for a request pushed under that URI, less
than 60 seconds before, by a push request of the same issuer: nothing but scope
and response mode differs from what was pushed, and nothing is taken from the
parameters next to the reference (`r0`). The pushed request was deleted, with the
store's acknowledgement, before. -/
theorem C15_pushed_verbatim (E : Env) (s : St) (ls : List Label) (hE : Empty s) (hK : NoKeyClash E (run E s ls))
    (j : Nat) (iss uri : Str) (q : AuthorizeReq) (a : AuthorizeResp)
    (h : CodeFromPush (run E s ls) j iss uri q a) :
    ∃ (m n d : Nat) (e0 e ed : Entry) (p : RegistrationReq) (sub r eff : AuthzRequest),
      m < n ∧ n < d ∧
      (run E s ls).log[m]? = some e0 ∧ Asked (run E s ls) e0.tid (.register (some p)) ∧ p.issuer = iss ∧
      p.request = some sub ∧ e0.cmd = .arReg iss uri r ∧ Effective sub r ∧
      (run E s ls).log[n]? = some e ∧ e.tid = j ∧ e.ev E = ⟨.arGet iss uri, .ok (some r)⟩ ∧
      e.time ≤ e0.time + 60 * second ∧
      (run E s ls).log[d]? = some ed ∧ ed.tid = j ∧ ed.ev E = ⟨.arDel iss uri, .ok ()⟩ ∧
      Effective r eff ∧ ⟨.csReg iss a.code { issuer := iss, subject := q.subject, request := some eff }, .ok 60⟩ ∈
        callsOf E j (run E s ls).log ∧
      a.redirectUri = sub.redirectUri ∧ a.state = sub.state ∧ a.clientId = sub.clientId ∧
      { eff with scope := sub.scope, responseMode := sub.responseMode } = sub := by
  obtain ⟨r0, ha, hi, rfl, hr, hu⟩ := h
  have hx := done_sound (authorize_pushed E q r0 uri hr hu) ha.authorize
  rw [List.nil_append] at hx
  obtain ⟨ar, rest, hsh⟩ := hx hi
  have i0 : (callsOf E j (run E s ls).log)[0]? = some ⟨.arGet q.issuer uri, .ok ar⟩ := by rw [hsh]; rfl
  have i1 : (callsOf E j (run E s ls).log)[1]? = some ⟨.arDel q.issuer uri, .ok ()⟩ := by rw [hsh]; rfl
  obtain ⟨n, e, a1, a2, a3, a4⟩ := callsOf_index i0
  obtain ⟨d, ed, b1, b2, b3, b4⟩ := callsOf_index i1
  cases ar with
  | none =>
    have := Entry.contract E e
    rw [a3] at this
    simp [StoreContract] at this
  | some r =>
    obtain ⟨m, e0, i', k', c1, c2, c3, c4, c5, c6⟩ := request_origin hE.requests a1 a3
    have hcl := noKeyClash_request hK c2 a1 (by rw [c3]; simp [cells]) (by rw [Entry.cmd_eq a3]; simp [cells]) c4
    obtain ⟨rfl, rfl⟩ := hcl
    obtain ⟨p, cl0, sub, d1, d2, d3, d4, d5, d6, d7, d8, d9⟩ := entry_arReg c2 c3
    have := done_sound (Authorization.authorize_done E (some q)) ha.authorize
    simp only [List.nil_append] at this
    rcases this with ⟨_, q', r', eff, cl, n', s', h1, ⟨_, _, hact, _, heff, _, _, _, hs'⟩, h4, h5⟩ | ⟨hn, _⟩
    case inr => exact absurd hi hn
    simp at h1; subst h1
    subst hs'
    have hrr : r' = r := by
      obtain ⟨r1, hr1, hor⟩ := hact
      rw [hr] at hr1; simp at hr1; subst hr1
      rcases hor with ⟨hn, _⟩ | ⟨u, hu', hm⟩
      · rw [hu] at hn; simp at hn
      · rw [hu] at hu'; simp at hu'; subst hu'
        -- a second lookup would be a second `arGet`
        obtain ⟨n2, e2, g1, g2, g3⟩ := mem_callsOf_iff.1 hm
        have := most_unique (S := isArGet) ha.asked (most_map (most_arGet E _)) a1 g1 a2 g2
          (by rw [Entry.cmd_eq a3]; rfl) (by rw [Entry.cmd_eq g3]; rfl)
        subst this
        rw [a1] at g1; cases g1
        rw [a3] at g3
        simpa using g3.symm
    subst hrr
    have hm : ⟨.csReg q.issuer a.code { issuer := q.issuer, subject := q.subject, request := some eff }, .ok n'⟩ ∈
        callsOf E j (run E s ls).log := by
      have : ⟨.csReg q.issuer a.code { issuer := q.issuer, subject := q.subject, request := some eff }, .ok n'⟩ ∈
          (callsOf E j (run E s ls).log).filter storesSession := by
        rw [h4]; exact List.mem_cons_self ..
      exact (List.mem_filter.1 this).1
    have h60 : n' = 60 := by
      obtain ⟨_, _, _, _, hev⟩ := mem_callsOf_iff.1 hm
      exact (Entry.csReg_ok hev).1
    subst h60
    have k1 := d8.rest
    have k2 := heff.rest
    refine ⟨m, n, d, e0, e, ed, p, sub, r', eff, c1, callsOf_lt a4 b4 (by omega), c2, d1, d9.symm, d4, c3, d8, a1, a2, a3,
      c5, b1, b2, b3, heff, hm, ?_, ?_, ?_, ?_⟩
    · rw [h5, ← k1]
    · rw [h5, ← k1]
    · rw [h5, ← k1]
    · rw [← k2] at k1; exact k1

/-- **C15** (once). In a sequential history the codes issued for a request URI can
be matched one-to-one with the push requests that stored something under it. -/
theorem C15_pushed_once (E : Env) (s : St) (ls : List Label) (hE : Empty s) (hs : Sequential 0 ls)
    (hK : NoKeyClash E (run E s ls)) (iss uri : Str) :
    ∃ f : Nat → Nat,
      (∀ j q a, CodeFromPush (run E s ls) j iss uri q a → Pushes (run E s ls) (f j) iss uri) ∧
      (∀ j q a j' q' a', CodeFromPush (run E s ls) j iss uri q a → CodeFromPush (run E s ls) j' iss uri q' a' →
        f j = f j' → j = j') := by
  have key : ∀ j, (∃ q a, CodeFromPush (run E s ls) j iss uri q a) →
      ∃ k, ∃ (n : Nat) (e : Entry) (d : Nat) (ed : Entry) (m : Nat) (e0 : Entry) (r : AuthzRequest)
        (p : RegistrationReq),
        k = e0.tid ∧ Asked (run E s ls) k (.register (some p)) ∧ m < n ∧ n < d ∧
        (run E s ls).log[n]? = some e ∧ e.tid = j ∧
        (run E s ls).log[d]? = some ed ∧ ed.tid = j ∧ ed.ev E = ⟨.arDel iss uri, .ok ()⟩ ∧
        (run E s ls).log[m]? = some e0 ∧ e0.cmd = .arReg iss uri r ∧
        (∀ j e', m < j → j < n → (run E s ls).log[j]? = some e' →
          ¬ (e'.post E).requests (requestKey E iss uri) = none) := by
    rintro j ⟨q, a, h⟩
    obtain ⟨_, n, d, _, e, ed, _, _, r, _, _, h2, _, _, _, _, _, _, h9, h10, h11, _, h13, h14, h15, _⟩ :=
      C15_pushed_verbatim E s ls hE hK j iss uri q a h
    obtain ⟨m, e0, i', k', c1, c2, c3, c4, c5, c6⟩ := request_origin hE.requests h9 h11
    have hcl := noKeyClash_request hK c2 h9 (by rw [c3]; simp [cells]) (by rw [Entry.cmd_eq h11]; simp [cells]) c4
    obtain ⟨rfl, rfl⟩ := hcl
    obtain ⟨p, cl0, sub, d1, _⟩ := entry_arReg c2 c3
    refine ⟨e0.tid, n, e, d, ed, m, e0, r, p, rfl, d1, c1, h2, h9, h10, h13, h14, h15, c2, c3, ?_⟩
    intro x e' y z w
    rw [c6 x e' y z w]; simp
  refine ⟨fun i => open Classical in if h : ∃ q a, CodeFromPush (run E s ls) i iss uri q a then
    Classical.choose (key i h) else 0, ?_, ?_⟩
  · intro i q a h
    have hex : ∃ q a, CodeFromPush (run E s ls) i iss uri q a := ⟨q, a, h⟩
    simp only [hex, dif_pos]
    obtain ⟨n, e, d, ed, m, e0, cs, p, hk, hp, _, _, _, _, _, _, _, b1, b2, _⟩ := Classical.choose_spec (key i hex)
    exact ⟨⟨_, hp⟩, e0, List.mem_of_getElem? b1, hk.symm, cs, b2⟩
  · have lt : ∀ i j, (hi : ∃ q a, CodeFromPush (run E s ls) i iss uri q a) →
        (hj : ∃ q a, CodeFromPush (run E s ls) j iss uri q a) →
        Classical.choose (key i hi) = Classical.choose (key j hj) → ¬ i < j := by
      intro i j hi hj heq hlt
      obtain ⟨n, e, d, ed, m, e0, cs, p, hk, hp, a1, a2, a3, a4, a5, a6, a7, a8, a9, _⟩ :=
        Classical.choose_spec (key i hi)
      obtain ⟨n', e', d', ed', m', e0', cs', p', hk', hp', b1, b2, b3, b4, b5, b6, b7, b8, b9, b10⟩ :=
        Classical.choose_spec (key j hj)
      have hmm : m = m' := most_unique (S := isPush) hp (most_map (most_register E _)) a8 b8 hk.symm
        (by rw [← hk', ← heq]) (by rw [a9]; rfl) (by rw [b9]; rfl)
      subst hmm
      have hdn : d < n' := sequential_lt hs a5 b3 (by rw [a6, b4]; exact hlt)
      have := b10 d ed (by omega) hdn a5
      rw [Entry.arDel_ok a7] at this
      simp at this
    intro i q a j q' a' h h' heq
    have hi : ∃ q a, CodeFromPush (run E s ls) i iss uri q a := ⟨q, a, h⟩
    have hj : ∃ q a, CodeFromPush (run E s ls) j iss uri q a := ⟨q', a', h'⟩
    simp only [hi, hj, dif_pos] at heq
    rcases Nat.lt_trichotomy i j with h1 | h1 | h1
    · exact absurd h1 (lt i j hi hj heq)
    · exact h1
    · exact absurd h1 (lt j i hj hi heq.symm)


/-! ### Violations -/

/-- Two redemptions of one code that overlap: both look the session up before
either deletes it. -/
def overlap : List Label :=
  Demo.authorizeRun 0 ++ [.arrive (.token (some Demo.codeReq)), .arrive (.token (some Demo.codeReq))] ++
  Demo.calls 1 [[], []] ++ Demo.redeemCalls 2 ++
  Demo.calls 1 [[], [], g!"id-at1", g!"at1", [], [], g!"id-rt1", g!"rt1", []]

/-- **C05** (negation). Overlapping requests redeem a code twice: handed out once,
no call fails, no time passes, and two token requests both obtain tokens. -/
theorem C05_violated : ∃ (E : Env) (s : St) (ls : List Label) (iss code : Str), Empty s ∧ NoKeyClash E (run E s ls) ∧
    (∀ j, Authorizes (run E s ls) j iss code → j = 0) ∧
    ∃ q g a q' g' a', Redeems (run E s ls) 1 iss code q g a ∧ ReturnsToken a ∧
      Redeems (run E s ls) 2 iss code q' g' a' ∧ ReturnsToken a' := by
  refine ⟨Demo.env, Demo.store, overlap, Demo.issuer, g!"c0de", Demo.store_empty,
    Demo.noKeyClash_of (by decide +kernel), ?_, ?_⟩
  · rintro j ⟨_, e, he, hj, cs, hc⟩
    have h : ((run Demo.env Demo.store overlap).log.all fun e => isReg e.cmd → e.tid == 0) = true := by decide +kernel
    have := List.all_eq_true.1 h e he
    rw [hc] at this
    simp [isReg] at this
    omega
  · obtain ⟨q, a, h1, h2⟩ := redeems_of (c := run Demo.env Demo.store overlap) (i := 1) (iss := Demo.issuer)
      (g := ⟨g!"c0de", g!"https://app/cb", Demo.verifier⟩) (fun _ a => ReturnsToken a) (by decide +kernel)
    obtain ⟨q', a', h1', h2'⟩ := redeems_of (c := run Demo.env Demo.store overlap) (i := 2) (iss := Demo.issuer)
      (g := ⟨g!"c0de", g!"https://app/cb", Demo.verifier⟩) (fun _ a => ReturnsToken a) (by decide +kernel)
    exact ⟨q, _, a, q', _, a', h1, h2, h1', h2'⟩

/-- The request of the second client for the code of the first. -/
def stolen : List Label :=
  Demo.authorizeRun 0 ++ .arrive (.token (some { Demo.codeReq with client := some Demo.client2 })) :: Demo.redeemCalls 1

/-- The effective form of the example request. -/
def demoEffective : AuthzRequest := { Demo.request with responseMode := some g!"query.jwt" }

/-- **C10** (negation). In a sequential history without failures a client obtains
tokens from a code that was issued for another client. -/
theorem C10_violated : ∃ (E : Env) (s : St) (ls : List Label) (iss code : Str),
    Empty s ∧ Sequential 0 ls ∧ NoKeyClash E (run E s ls) ∧
    ∃ j aq sub eff i q g a c0, CodeFor (run E s ls) j iss code aq sub eff ∧
      Redeems (run E s ls) i iss code q g a ∧ ReturnsToken a ∧ q.client = some c0 ∧ c0.clientId ≠ sub.clientId ∧
      ∀ k, Authorizes (run E s ls) k iss code → k = j := by
  refine ⟨Demo.env, Demo.store, stolen, Demo.issuer, g!"c0de", Demo.store_empty,
    by simp [stolen, Demo.authorizeRun, Demo.calls, Demo.redeemCalls, Sequential],
    Demo.noKeyClash_of (by decide +kernel), 0, Demo.authorizeReq, Demo.request, demoEffective, 1, ?_⟩
  obtain ⟨q, a, h1, h2, h3⟩ := redeems_of (c := run Demo.env Demo.store stolen) (i := 1) (iss := Demo.issuer)
    (g := ⟨g!"c0de", g!"https://app/cb", Demo.verifier⟩)
    (fun q a => ReturnsToken a ∧ q.client = some Demo.client2) (by decide +kernel)
  refine ⟨q, _, a, Demo.client2, codeFor_of (E := Demo.env) (q := Demo.authorizeReq) (by decide +kernel) rfl rfl
    (by decide +kernel) (by decide +kernel), h1, h2, h3, by decide, ?_⟩
  rintro j ⟨_, e, he, hj, cs, hc⟩
  have h : ((run Demo.env Demo.store stolen).log.all fun e => isReg e.cmd → e.tid == 0) = true := by decide +kernel
  have := List.all_eq_true.1 h e he
  rw [hc] at this
  simp [isReg] at this
  omega

/-- A request for offline access without consent, naming it twice. -/
def greedy : AuthzRequest :=
  { Demo.request with scope := g!"openid offline_access offline_access", prompt := none }

def greedyRun : List Label :=
  .arrive (.authorize (some { Demo.authorizeReq with request := some greedy })) :: Demo.calls 0 [[], g!"c0de", []] ++
  .arrive (.token (some Demo.codeReq)) :: Demo.redeemCalls 1

/-- **C14** (negation). A code obtained without asking for consent yields a refresh
token when the request names `offline_access` twice. -/
theorem C14_violated : ∃ (E : Env) (s : St) (ls : List Label) (iss code : Str),
    Empty s ∧ Sequential 0 ls ∧ NoKeyClash E (run E s ls) ∧
    ∃ j aq sub eff i q g a, CodeFor (run E s ls) j iss code aq sub eff ∧
      Redeems (run E s ls) i iss code q g a ∧ a.refreshToken.isSome = true ∧ sub.prompt ≠ some g!"consent" ∧
      ∀ k, Authorizes (run E s ls) k iss code → k = j := by
  refine ⟨Demo.env, Demo.store, greedyRun, Demo.issuer, g!"c0de", Demo.store_empty,
    by simp [greedyRun, Demo.calls, Demo.redeemCalls, Sequential],
    Demo.noKeyClash_of (by decide +kernel), 0, { Demo.authorizeReq with request := some greedy }, greedy,
    { greedy with scope := g!"openid offline_access", responseMode := some g!"query.jwt" }, 1, ?_⟩
  obtain ⟨q, a, h1, h2⟩ := redeems_of (c := run Demo.env Demo.store greedyRun) (i := 1) (iss := Demo.issuer)
    (g := ⟨g!"c0de", g!"https://app/cb", Demo.verifier⟩)
    (fun q a => a.refreshToken.isSome = true) (by decide +kernel)
  refine ⟨q, _, a, codeFor_of (E := Demo.env) (q := { Demo.authorizeReq with request := some greedy })
    (by decide +kernel) rfl rfl (by decide +kernel) (by decide +kernel), h1, h2, by decide, ?_⟩
  rintro j ⟨_, e, he, hj, cs, hc⟩
  have h : ((run Demo.env Demo.store greedyRun).log.all fun e => isReg e.cmd → e.tid == 0) = true := by decide +kernel
  have := List.all_eq_true.1 h e he
  rw [hc] at this
  simp [isReg] at this
  omega

/-! ### Non-vacuity -/

/-- C04, C07, C08, C09, C12, C14: a sequential history without key clash in which
a code is redeemed. -/
example : Empty Demo.store ∧ Sequential 0 Demo.happy ∧ NoKeyClash Demo.env (run Demo.env Demo.store Demo.happy) ∧
    ∃ q g a, Redeems (run Demo.env Demo.store Demo.happy) 1 Demo.issuer g!"c0de" q g a ∧
      a.accessToken.isSome = true ∧ a.refreshToken.isSome = true := by
  refine ⟨Demo.store_empty, by simp [Demo.happy, Demo.authorizeRun, Demo.calls, Demo.redeemCalls, Sequential],
    Demo.noKeyClash_of (by decide +kernel), ?_⟩
  obtain ⟨q, a, h1, h2⟩ := redeems_of (c := run Demo.env Demo.store Demo.happy) (i := 1) (iss := Demo.issuer)
    (g := ⟨g!"c0de", g!"https://app/cb", Demo.verifier⟩)
    (fun _ a => a.accessToken.isSome = true ∧ a.refreshToken.isSome = true) (by decide +kernel)
  exact ⟨q, _, a, h1, h2⟩

/-- C10: without the second client the assumptions of the partial theorem hold. -/
example : let s : St := { Demo.store with clients := fun id => if id = g!"app" then some Demo.client else none }
    (∀ id id' cl cl', s.clients id = some cl → s.clients id' = some cl' →
      MemFold g!"https://app/cb" cl.redirectUris → MemFold g!"https://app/cb" cl'.redirectUris → id = id') ∧
    (∀ id cl, s.clients id = some cl → cl.clientId = id) ∧ NoKeyClash Demo.env (run Demo.env s Demo.happy) ∧
    ∃ q g a, Redeems (run Demo.env s Demo.happy) 1 Demo.issuer g!"c0de" q g a := by
  intro s
  refine ⟨?_, ?_, Demo.noKeyClash_of (by decide +kernel), ?_⟩
  · intro id id' cl cl' h h' _ _
    simp only [s] at h h'
    split at h <;> split at h' <;> simp_all
  · intro id cl h
    simp only [s] at h
    split at h
    · rename_i e; cases h; rw [e]; rfl
    · simp at h
  · obtain ⟨q, a, h1, h2⟩ := redeems_of (c := run Demo.env s Demo.happy) (i := 1) (iss := Demo.issuer)
      (g := ⟨g!"c0de", g!"https://app/cb", Demo.verifier⟩) (fun _ _ => True) (by decide +kernel)
    exact ⟨q, _, a, h1⟩

/-- A wrong verifier, then the right one. -/
def guess : List Label :=
  Demo.authorizeRun 0 ++
  .arrive (.token (some { Demo.codeReq with
    grant := some (.authorizationCode ⟨g!"c0de", g!"https://app/cb", List.replicate 43 98⟩) })) :: Demo.calls 1 [[], [], []] ++
  .arrive (.token (some Demo.codeReq)) :: Demo.calls 2 [[], []]

/-- C06, C11: the wrong guess finds and deletes the session (positions 4 and 5),
and the lookup of the right one (position 7) comes later, without a storage in between. -/
example : NoKeyClash Demo.env (run Demo.env Demo.store guess) ∧
    ((run Demo.env Demo.store guess).log.map fun e => decide (e.cmd = .csGet Demo.issuer g!"c0de")) =
      [false, false, false, false, true, false, false, true] ∧
    ((run Demo.env Demo.store guess).log.map fun e => decide (e.cmd = .csDel Demo.issuer g!"c0de")) =
      [false, false, false, false, false, true, false, false] ∧
    (tokenAnswer (run Demo.env Demo.store guess) 1).map (·.2.error) =
      some (some ⟨.invalidGrant, some Demo.request.state⟩) ∧
    (tokenAnswer (run Demo.env Demo.store guess) 2).map (·.2.error) = some (some ⟨.invalidGrant, none⟩) :=
  ⟨Demo.noKeyClash_of (by decide +kernel), by decide +kernel, by decide +kernel, by decide +kernel, by decide +kernel⟩

/-- A push, and an authorization referring to it with misleading parameters. -/
def pushRun : List Label :=
  .arrive (.register (some {
    issuer := Demo.issuer, client := some Demo.client, request := some Demo.request })) ::
    Demo.calls 0 [[], g!"uri", []] ++
  .arrive (.authorize (some { Demo.authorizeReq with
    request := some { Demo.request with requestUri := some g!"uri", redirectUri := g!"https://evil", scope := [] } })) ::
    Demo.calls 1 [[], [], [], g!"c0de", []]

/-- C15: a code is issued for a pushed request. -/
example : Sequential 0 pushRun ∧ NoKeyClash Demo.env (run Demo.env Demo.store pushRun) ∧
    ∃ q a, CodeFromPush (run Demo.env Demo.store pushRun) 1 Demo.issuer g!"uri" q a ∧
      a.redirectUri = g!"https://app/cb" := by
  refine ⟨by simp [pushRun, Demo.calls, Sequential], Demo.noKeyClash_of (by decide +kernel), ?_⟩
  have h : ((run Demo.env Demo.store pushRun).threads[1]?.any fun th => match th with
      | ⟨.authorize (some q), .ret (.authorize a)⟩ => decide (Issued a ∧ q.issuer = Demo.issuer ∧
          q.request.bind (·.requestUri) = some g!"uri" ∧ a.redirectUri = g!"https://app/cb")
      | _ => false) = true := by decide +kernel
  cases hg : (run Demo.env Demo.store pushRun).threads[1]? with
  | none => rw [hg] at h; simp at h
  | some th =>
    rw [hg] at h
    simp only [Option.any_some] at h
    split at h
    · rename_i q a
      obtain ⟨h1, h2, h3, h4⟩ := of_decide_eq_true h
      cases hr : q.request with
      | none => rw [hr] at h3; simp at h3
      | some r0 =>
        rw [hr] at h3
        exact ⟨q, a, ⟨r0, ⟨_, hg, rfl, rfl⟩, h1, h2, hr, h3⟩, h4⟩
    · simp at h

/-- The request is pushed with a proof of one key, the code is redeemed with a proof of another one. -/
def otherKeyRun : List Label :=
  .arrive (.register (some {
    issuer := Demo.issuer, client := some Demo.client, request := some Demo.request, confirmation := some ⟨g!"k1"⟩ })) ::
    Demo.calls 0 [[], g!"uri", []] ++
  .arrive (.authorize (some { Demo.authorizeReq with
    request := some { Demo.request with requestUri := some g!"uri" } })) :: Demo.calls 1 [[], [], [], g!"c0de", []] ++
  .arrive (.token (some { Demo.codeReq with tokenConfirmation := some ⟨g!"k2"⟩ })) ::
    Demo.calls 2 [[], [], [], [], g!"id1", g!"at1", [], [], g!"id2", g!"rt1", [], []]

theorem register_any_key (E : Env) (p : RegistrationReq) (k : Option Cnf) :
    Authorization.register E (some { p with confirmation := k }) = Authorization.register E (some p) := by
  obtain ⟨i, c, r, k'⟩ := p
  cases c with
  | none => simp only [Authorization.register]
  | some c =>
    cases r with
    | none => simp only [Authorization.register]
    | some r =>
      simp only [Authorization.register]
      congr 2
      congr 1
      funext x
      cases x with
      | error => rfl
      | ok ar =>
        dsimp only
        congr 2
        funext y
        cases y with
        | error => rfl
        | ok uri =>
          dsimp only
          congr 1
          funext z
          cases z <;> rfl

/-- **C16_key_violated.** The key whose proof came with a pushed request is forgotten (RFC 9449 §10.1): the push makes
the same calls and gives the same answer whatever the key is, and there is a history in which the only request was pushed
with one key and its code gives a token that is bound to another one. -/
theorem C16_key_violated :
    (∀ (E : Env) (p : RegistrationReq) (k k' : Option Cnf), Authorization.register E (some { p with confirmation := k }) =
      Authorization.register E (some { p with confirmation := k' })) ∧
    ∃ (E : Env) (s : St) (ls : List Label) (p : RegistrationReq) (q : TokenReq) (g : GrantCode) (a : TokenResp) (t : Token),
      Sequential 0 ls ∧ NoKeyClash E (run E s ls) ∧ (∀ k, s.codes k = none) ∧
      (∃ x, (run E s ls).threads.map (·.req) = [.register (some p), .authorize x, .token (some q)]) ∧
      p.confirmation = some ⟨g!"k1"⟩ ∧
      Answered (run E s ls) 2 (.token (some q)) (.token a) ∧ q.grant = some (.authorizationCode g) ∧
      a.accessToken = some t ∧ t.confirmation = some ⟨g!"k2"⟩ := by
  refine ⟨fun E p k k' => (register_any_key E p k).trans (register_any_key E p k').symm, Demo.env, Demo.store, otherKeyRun, { issuer := Demo.issuer, client := some Demo.client, request := some Demo.request, confirmation := some ⟨g!"k1"⟩ }, ?_⟩
  obtain ⟨q, a, h1, h2, h3⟩ := tokenAnswer_ex (c := run Demo.env Demo.store otherKeyRun) (i := 2)
    (fun q a => q = { Demo.codeReq with tokenConfirmation := some ⟨g!"k2"⟩ } ∧
      (a.accessToken.map (·.confirmation)) = some (some ⟨g!"k2"⟩)) (by decide +kernel)
  cases ht : a.accessToken with
  | none => rw [ht] at h3; simp at h3
  | some t =>
    rw [ht] at h3
    refine ⟨q, _, a, t, by simp [otherKeyRun, Demo.calls, Sequential], Demo.noKeyClash_of (by decide +kernel), ?_, ?_, rfl, h1, by rw [h2]; rfl, ht,
      by simpa using h3⟩
    · exact fun _ => rfl
    · exact ⟨some { Demo.authorizeReq with request := some { Demo.request with requestUri := some g!"uri" } }, by
        rw [h2]; decide +kernel⟩

end Verif.Props
