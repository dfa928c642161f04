import Verif.Proofs.HttpTransfer
import Verif.Props.Codes
import Verif.Props.Origin
import Verif.Props.DPoP
import Verif.Proofs.HttpRun

/-! Histories of the example server. -/
namespace Verif.Props
open Verif.Spec Verif.Prog Verif.Store

/-- **C87.** Every history of the HTTP server, with any number of requests in flight and any
failures, is a history of the services: same stores, same calls in the same order (but for
reads of the clock and of client registrations by the middlewares and handlers), service
requests that are what the HTTP requests stand for, and HTTP answers that convey the answers
of the services. Requests served one after the other are served one after the other by the
services. -/
theorem C87_refines (S : Http.Server) (s : St) (hls : List Http.Label) :
    ∃ ls own, Refines S own (Http.run S s hls) (run S.E s ls) ∧
      (Http.Sequential 0 hls → Sequential 0 ls ∧
        ∀ j j' q q', Asked (run S.E s ls) j q → Asked (run S.E s ls) j' q' → own j < own j' → j < j') := by
  obtain ⟨ls, own, h1, h2⟩ := Http.sim_run S s hls
  refine ⟨ls, (own.getD · 0), h1.refines, fun hs => ?_⟩
  obtain ⟨a1, a2, _⟩ := h2 hs
  refine ⟨a1, fun j j' q q' ⟨t, ht, _⟩ ⟨t', ht', _⟩ hlt => ?_⟩
  have l1 : j < own.length := by rw [h1.frame.len]; exact Http.lt_of_getElem? ht
  have l2 : j' < own.length := by rw [h1.frame.len]; exact Http.lt_of_getElem? ht'
  rcases Nat.lt_or_ge j j' with h | h
  · exact h
  · exfalso
    simp only [List.getD_eq_getElem?_getD, List.getElem?_eq_getElem l1, List.getElem?_eq_getElem l2, Option.getD_some] at hlt
    rcases Nat.eq_or_lt_of_le h with h | h
    · subst h; omega
    · have := (List.pairwise_iff_getElem.1 a2) j' j l2 l1 h
      omega

/-- A history where the server does everything it can for tokens. -/
theorem web_ok : Empty Demo.webStore ∧ Http.Sequential 0 Demo.web ∧
    NoKeyClash Demo.server.E (logOf (Http.run Demo.server Demo.webStore Demo.web)) ∧
    FreshTokens (logOf (Http.run Demo.server Demo.webStore Demo.web)) :=
  ⟨Demo.webStore_empty, by decide +kernel, Demo.noKeyClash_of (by decide +kernel), Demo.freshTokens_of (by decide +kernel)⟩

/-- Its nine requests are answered, and the services behind them made calls of all kinds. -/
example : (∀ i < 9, ∃ route r a, Http.Answered (Http.run Demo.server Demo.webStore Demo.web) i route r a) ∧
    ((Http.run Demo.server Demo.webStore Demo.web).log.filter fun e => touches e.cmd).length = 24 := by
  refine ⟨fun i hi => ?_, by decide +kernel⟩
  have h : ∀ i < 9, (Http.answerTo (Http.run Demo.server Demo.webStore Demo.web) i).any (fun _ => decide True) = true := by
    decide +kernel
  obtain ⟨route, r, a, h1, _⟩ := Http.answer_ex (fun _ _ _ => True) (h i hi)
  exact ⟨route, r, a, h1⟩

/-! ### The code flow over HTTP -/

/-- **C89.** Served one after the other, requests at /token get tokens for a code at most
once per time an /authorize request handed the code out. -/
theorem C89_code_once (S : Http.Server) (s : St) (hls : List Http.Label) (hE : Empty s) (hs : Http.Sequential 0 hls)
    (hK : NoKeyClash S.E (logOf (Http.run S s hls))) (code : Str) :
    ∃ f : Nat → Nat,
      (∀ i r b, GotTokens (Http.run S s hls) i code r b → HandsOut S (Http.run S s hls) (f i) code) ∧
      (∀ i r b i' r' b', GotTokens (Http.run S s hls) i code r b → GotTokens (Http.run S s hls) i' code r' b' →
        f i = f i' → i = i') := by
  classical
  obtain ⟨ls, own, hR, hseq⟩ := C87_refines S s hls
  obtain ⟨hs', _⟩ := hseq hs
  obtain ⟨f, f1, f2⟩ := C04_redeemed_once S.E s ls hE hs' (hR.noKeyClash hK) S.issuer code
  -- the service request behind a redemption
  have key : ∀ i, (∃ r b, GotTokens (Http.run S s hls) i code r b) →
      ∃ j, own j = i ∧ ∃ q g a, Redeems (run S.E s ls) j S.issuer code q g a := by
    rintro i ⟨r, b, h⟩
    obtain ⟨j, c0, cnf, a, t, md, h1, h2, _⟩ := hR.redeems h
    exact ⟨j, h1, _, _, a, h2⟩
  refine ⟨fun i => if h : ∃ r b, GotTokens (Http.run S s hls) i code r b then own (f (key i h).choose) else 0, ?_, ?_⟩
  · intro i r b h
    have hex : ∃ r b, GotTokens (Http.run S s hls) i code r b := ⟨r, b, h⟩
    simp only [hex, dif_pos]
    obtain ⟨h1, q, g, a, h2⟩ := (key i hex).choose_spec
    obtain ⟨⟨q', hq'⟩, e, he, h3, cs, h4⟩ := f1 _ q g a h2
    refine ⟨?_, relabel own e, hR.mem he, by simp [relabel, h3], cs, h4⟩
    obtain ⟨route, r, h5, h6⟩ := hR.asked _ _ hq'
    cases h6 with
    | authorize _ _ _ _ _ _ _ _ _ => exact ⟨r, h5⟩
  · intro i r b i' r' b' h h' he
    have hex : ∃ r b, GotTokens (Http.run S s hls) i code r b := ⟨r, b, h⟩
    have hex' : ∃ r b, GotTokens (Http.run S s hls) i' code r b := ⟨r', b', h'⟩
    simp only [hex, hex', dif_pos] at he
    obtain ⟨h1, q, g, a, h2⟩ := (key i hex).choose_spec
    obtain ⟨h1', q', g', a', h2'⟩ := (key i' hex').choose_spec
    obtain ⟨⟨p, hp⟩, _⟩ := f1 _ q g a h2
    obtain ⟨⟨p', hp'⟩, _⟩ := f1 _ q' g' a' h2'
    have := f2 _ _ _ _ _ _ _ _ h2 h2' (hR.once _ _ _ _ he hp hp' Iff.rfl)
    rw [← h1, ← h1', this]

example : Empty Demo.webStore ∧ Http.Sequential 0 Demo.web ∧
    NoKeyClash Demo.server.E (logOf (Http.run Demo.server Demo.webStore Demo.web)) ∧
    ∃ r b, GotTokens (Http.run Demo.server Demo.webStore Demo.web) 1 g!"c0de" r b ∧
      (b.accessToken = g!"at" ∧ b.refreshToken = g!"rt") :=
  ⟨web_ok.1, web_ok.2.1, web_ok.2.2.1, Http.got_of _ (fun b => b.accessToken = g!"at" ∧ b.refreshToken = g!"rt") (by decide +kernel)⟩

/-- **C89** (negation of single use when requests overlap). Without any failure, two /token
requests get tokens for a code that was handed out once. -/
theorem C89_overlap_violated : ∃ (S : Http.Server) (s : St) (hls : List Http.Label) (code : Str), Empty s ∧
    NoKeyClash S.E (logOf (Http.run S s hls)) ∧ (∀ k, HandsOut S (Http.run S s hls) k code → k = 0) ∧
    (∃ r b, GotTokens (Http.run S s hls) 1 code r b) ∧ ∃ r b, GotTokens (Http.run S s hls) 2 code r b := by
  refine ⟨Demo.server, Demo.webStore, Demo.webOverlap, g!"c0de", Demo.webStore_empty,
    Demo.noKeyClash_of (by decide +kernel), ?_, ?_, ?_⟩
  · rintro k ⟨_, e, he, hj, cs, hc⟩
    have h : ((Http.run Demo.server Demo.webStore Demo.webOverlap).log.all fun e => isReg e.cmd → e.tid == 0) = true := by
      decide +kernel
    have := List.all_eq_true.1 h e he
    rw [hc] at this
    simp [isReg] at this
    omega
  · obtain ⟨r, b, h, _⟩ := Http.got_of (c := Http.run Demo.server Demo.webStore Demo.webOverlap) (i := 1) g!"c0de"
      (fun b => b.accessToken = g!"at1") (by decide +kernel)
    exact ⟨r, b, h⟩
  · obtain ⟨r, b, h, _⟩ := Http.got_of (c := Http.run Demo.server Demo.webStore Demo.webOverlap) (i := 2) g!"c0de"
      (fun b => b.accessToken = g!"at") (by decide +kernel)
    exact ⟨r, b, h⟩

/-- The second client redeems the code of the first. -/
def webStolen : List Http.Label :=
  Demo.webAuthorize 0 ++ .arrive .token { Demo.httpCode with query := Demo.form [(g!"client_id", g!"other")] } ::
    Demo.webCalls 1 [[], [], [], [], [], g!"id-at", g!"at", [], [], g!"id-rt", g!"rt", [], []]

/-- **C89** (negation of the binding to the client). Requests served one after the other and
without any failure: the code that the user let one client have gets another client the
tokens of the user. -/
theorem C89_client_violated : ∃ (S : Http.Server) (s : St) (hls : List Http.Label) (code : Str), Empty s ∧
    Http.Sequential 0 hls ∧ NoKeyClash S.E (logOf (Http.run S s hls)) ∧
    (∃ rk, Http.Asked (Http.run S s hls) 0 .authorize rk ∧ rk.get g!"client_id" = g!"app" ∧ HandsOut S (Http.run S s hls) 0 code) ∧
    (∃ r b, GotTokens (Http.run S s hls) 1 code r b ∧ r.get g!"client_id" = g!"other") ∧
    ∃ e ∈ (Http.run S s hls).log, ∃ i t md, e.cmd = .tkCreate i t ∧ t.metadata = some md ∧ md.subject = g!"hello" ∧
      md.clientId = g!"other" := by
  refine ⟨Demo.server, Demo.webStore, webStolen, g!"c0de", Demo.webStore_empty, by decide +kernel,
    Demo.noKeyClash_of (by decide +kernel), ?_, ?_, ?_⟩
  · obtain ⟨_, rk, _, ⟨th, h1, h2, h3, _⟩, rfl, h5⟩ := Http.answer_ex (c := Http.run Demo.server Demo.webStore webStolen) (i := 0)
      (fun x y _ => x = .authorize ∧ y.get g!"client_id" = g!"app") (by decide +kernel)
    have h : ((Http.run Demo.server Demo.webStore webStolen).log.any fun e => match e.cmd with
        | .csReg i c _ => decide (e.tid = 0 ∧ i = Demo.issuer ∧ c = g!"c0de") | _ => false) = true := by decide +kernel
    obtain ⟨e, he, k⟩ := List.any_eq_true.1 h
    split at k
    · rename_i i c cs hc
      obtain ⟨k1, rfl, rfl⟩ := of_decide_eq_true k
      exact ⟨rk, ⟨th, h1, h2, h3⟩, h5, ⟨rk, th, h1, h2, h3⟩, e, he, k1, cs, hc⟩
    · cases k
  · obtain ⟨_, r, a, h, rfl, h1, h2, h3, h4⟩ := Http.answer_ex (c := Http.run Demo.server Demo.webStore webStolen) (i := 1)
      (fun x y z => x = .token ∧ z.tokens?.isSome = true ∧ y.formValue g!"grant_type" = g!"authorization_code" ∧
        y.formValue g!"code" = g!"c0de" ∧ y.get g!"client_id" = g!"other") (by decide +kernel)
    obtain ⟨b, hb⟩ := Option.isSome_iff_exists.1 h1
    obtain rfl := Http.Resp.tokens?_eq hb
    exact ⟨r, b, ⟨h, h2, h3⟩, h4⟩
  · have h : ((Http.run Demo.server Demo.webStore webStolen).log.any fun e => match e.cmd with
        | .tkCreate _ t => decide (t.metadata.map (fun md => (md.subject, md.clientId)) = some (g!"hello", g!"other"))
        | _ => false) = true := by decide +kernel
    obtain ⟨e, he, k⟩ := List.any_eq_true.1 h
    split at k
    · rename_i i t hc
      have k := of_decide_eq_true k
      cases hm : t.metadata with
      | none => simp [hm] at k
      | some md => rw [hm] at k; simp at k; exact ⟨e, he, i, t, md, hc, hm, k.1, k.2⟩
    · cases k

/-- **C89.** Any interleaving: tokens for a code are got only by a client that authenticated
at /token with the verifier and the redirect URI of the request object that an /authorize
request, made by the logged-in user less than a minute before, carried or referred to; and
the token is for this user, under the name by which the client of the request knows the user. -/
theorem C89_code_origin (S : Http.Server) (s : St) (hls : List Http.Label) (hE : Empty s)
    (hK : NoKeyClash S.E (logOf (Http.run S s hls))) (i : Nat) (code : Str) (r : Http.Req) (b : Http.TokenBody)
    (h : GotTokens (Http.run S s hls) i code r b) :
    ∃ k m n rk cl u sub ar req c0 cl0 t cnf,
      UserAt S s (Http.run S s hls) k rk cl u sub ar ∧ StandsIn S (Http.run S s hls) ar req ∧
      CodeFrom S (Http.run S s hls) i k m n code sub ∧
      req.codeChallengeMethod = g!"S256" ∧ req.codeChallenge = Go.b64 (S.E.sha256 (r.formValue g!"code_verifier")) ∧
      43 ≤ (r.formValue g!"code_verifier").length ∧ (r.formValue g!"code_verifier").length ≤ 128 ∧
      req.redirectUri = r.formValue g!"redirect_uri" ∧
      FromClient S.P r (callsOf S.E i (Http.run S s hls).log) c0 ∧ s.clients c0.clientId = some cl0 ∧
      MemFold (r.formValue g!"redirect_uri") cl0.redirectUris ∧
      ⟨.tkCreate S.issuer t, .ok ()⟩ ∈ callsOf S.E i (Http.run S s hls).log ∧ t.value = b.accessToken ∧
      Carries t S.issuer sub cl0.clientId b.scope req.audience cnf ∧ (cnf.isSome = true ↔ r.dpop ≠ []) ∧
      ∀ w, IsWord w b.scope → IsWord w req.scope := by
  obtain ⟨ls, own, hR, _⟩ := C87_refines S s hls
  obtain ⟨j, c0, cnf, a, t, md, h1, h2, h3, h4, h5, h6, h7, h8⟩ := hR.redeems h
  obtain ⟨c0', cl, evs, cs, ar, mint, g1, g2, hg, n, e, m, e0, k1, k2, k3, k4, k5, k6, k7, q', sub, hc, hcs⟩ :=
    redeems_origin hE.codes hE.requests (hR.noKeyClash hK) h2
  cases g1
  obtain ⟨rk, clk, u, ark, u1, u2, u3⟩ := hR.user hc.asked
  obtain ⟨x, hsub, heff⟩ := hc.submitted
  obtain ⟨φ, p1, p2⟩ := hR.pos
  have q1 := p2 m e0 k5
  have q2 := p2 n e k2
  obtain ⟨v1, v2, v3⟩ := (TokenSvc.codeTokens_facts hg.tokens).2.2.2.2.2.2.2 t (Or.inl h3)
  refine ⟨own e0.tid, φ m, φ n, rk, clk, u, q'.subject, ark, sub, c0, cl, t, cnf, u1, hR.means u3 u2 hsub,
    ⟨p1 _ _ k1, ⟨_, cs, q1, rfl, k6, by rw [hcs]⟩, ⟨_, q2, by simp [relabel, k3, h1], by simp [relabel, Entry.cmd_eq k4]⟩, ?_⟩,
    ?_, ?_, hg.minLen, hg.maxLen, ?_, h7, ?_, hg.checks.registered, ?_, h5.symm, ?_, h8, ?_⟩
  · intro x y hx hy
    rw [q1] at hx; cases hx
    rw [q2] at hy; cases hy
    exact k7
  · rw [← hc.kept]; exact hg.checks.method
  · rw [← hc.kept]; exact hg.checks.pkce.symm
  · rw [← hc.kept]; exact hg.checks.redirect
  · exact Verif.client_found (by rw [g2]; exact List.mem_cons_self ..)
  · rw [← h1]
    exact hR.calls (by rw [g2, hg.trace]; simp [v2])
  · rw [hcs] at v3
    obtain ⟨⟨md', w1, w2, w3, w4, w5, w6⟩, w7, w8⟩ := v3
    rw [h4] at w1; cases w1
    refine ⟨⟨md, h4, w2, w3, w4, h6.symm, ?_⟩, w7, w8⟩
    rw [← hc.kept]; exact w6
  · obtain ⟨⟨md', w1, w2, w3, w4, w5, w6⟩, w7, w8⟩ := v3
    rw [h4] at w1; cases w1
    intro w hw
    rw [h6, w5] at hw
    have := heff.scopeSub w hw
    cases hsub with
    | direct _ _ _ => exact this
    | pushed r0 _ _ uri k p _ _ _ _ _ hp _ => exact hp.scopeSub w this

/-- The hypotheses also hold of overlapping requests. -/
example : Empty Demo.webStore ∧ ¬ Http.Sequential 0 Demo.webOverlap ∧
    NoKeyClash Demo.server.E (logOf (Http.run Demo.server Demo.webStore Demo.webOverlap)) ∧
    ∃ r b, GotTokens (Http.run Demo.server Demo.webStore Demo.webOverlap) 1 g!"c0de" r b ∧ b.accessToken = g!"at1" :=
  ⟨Demo.webStore_empty, by decide +kernel, Demo.noKeyClash_of (by decide +kernel),
    Http.got_of _ (fun b => b.accessToken = g!"at1") (by decide +kernel)⟩

/-! ### Revocation, proofs of possession and devices over HTTP -/

/-- **C90.** Requests served one after the other: after /revoke answered 200 for a token,
no later /token request gets tokens by refreshing it, and /introspect never calls it active. -/
theorem C90_revoked_for_good (S : Http.Server) (s : St) (hls : List Http.Label) (hE : Empty s) (hs : Http.Sequential 0 hls)
    (hK : NoKeyClash S.E (logOf (Http.run S s hls))) (hF : FreshTokens (logOf (Http.run S s hls)))
    (i : Nat) (r : Http.Req) (h : Http.Answered (Http.run S s hls) i .revoke r ⟨200, .empty⟩) (j : Nat) (hij : i < j)
    (r' : Http.Req) :
    (r'.formValue g!"grant_type" = g!"refresh_token" → r'.formValue g!"refresh_token" = r.formValue g!"token" →
      ∀ b, ¬ Http.Answered (Http.run S s hls) j .token r' ⟨200, .tokens b⟩) ∧
    (r'.formValue g!"token" = r.formValue g!"token" →
      ∀ b, ¬ Http.Answered (Http.run S s hls) j .introspect r' ⟨200, .introspection (some b)⟩) := by
  obtain ⟨ls, own, hR, hseq⟩ := C87_refines S s hls
  obtain ⟨hs', hmono⟩ := hseq hs
  obtain ⟨k, q, x, hk, h1, h2, h3⟩ := hR.behind h (by simp [NoResult])
  have hrev : ∃ a c0, x = .revoke a ∧ a.goErr = false ∧
      q = .revoke (some { issuer := S.issuer, client := some c0, token := r.formValue g!"token" }) := by
    cases h3 with
    | revoke c0 k1 =>
      obtain ⟨a, rfl, _⟩ := exec_map h1.exec
      cases h2 with
      | revoked a hg => exact ⟨a, c0, rfl, hg, rfl⟩
  obtain ⟨a, c0, rfl, hg, rfl⟩ := hrev
  have fin := fun (k' : Nat) (hk' : k < k') => C27_sequential S.E s ls hE (hR.noKeyClash hK) (hR.fresh hF) hs' k _ a h1 hg k' hk'
  constructor
  · intro g1 g2 b hb
    obtain ⟨k', c1, cnf, g, a', t, md, e1, e2, e3, e4, _, _, _, _, e9, _⟩ := hR.tokens hb
    obtain rfl := Http.formGrant_refresh e9 g1
    refine (fin k' (hmono _ _ _ _ h1.asked e2.asked (by omega))).1 _ a' rfl ?_ e2 (Or.inl (by simp [e4]))
    simp [g2]
  · intro g1 b hb
    obtain ⟨k', q', x', hk', e1, e2, e3⟩ := hR.behind hb (by simp [NoResult])
    cases e3 with
    | introspect c1 _ =>
      cases e2 with
      | active a' t md _ w1 w2 w3 =>
        rcases (fin k' (hmono _ _ _ _ h1.asked e1.asked (by omega))).2.2 { issuer := S.issuer, client := some c1, token := r'.formValue g!"token" } a' rfl g1 e1 with w | ⟨y, w, w'⟩
        · rw [w1] at w; cases w
        · rw [w2] at w; cases w
          rw [w3] at w'; cases w'

/-- The access token was active and the refresh token was good for tokens before they were given up. -/
example : (∃ r b, Http.Answered (Http.run Demo.server Demo.webStore Demo.web) 3 .introspect r ⟨200, .introspection (some b)⟩ ∧
      b.sub = g!"hello") ∧
    (∃ r, Http.Answered (Http.run Demo.server Demo.webStore Demo.web) 4 .revoke r ⟨200, .empty⟩ ∧ r.formValue g!"token" = g!"at") ∧
    (∃ r b, Http.Answered (Http.run Demo.server Demo.webStore Demo.web) 6 .token r ⟨200, .tokens b⟩ ∧
      r.formValue g!"refresh_token" = g!"rt") ∧
    ∃ r, Http.Answered (Http.run Demo.server Demo.webStore Demo.web) 7 .revoke r ⟨200, .empty⟩ ∧ r.formValue g!"token" = g!"rt" := by
  refine ⟨?_, ?_, ?_, ?_⟩
  · obtain ⟨_, r, ⟨_, b⟩, h, rfl, rfl, h2⟩ := Http.answer_ex (c := Http.run Demo.server Demo.webStore Demo.web) (i := 3)
      (fun x _ z => x = .introspect ∧ z.status = 200 ∧
        (match z.body with | .introspection (some b) => some b.sub | _ => none) = some g!"hello") (by decide +kernel)
    dsimp only at h2
    split at h2
    · exact ⟨r, _, h, by simpa using h2⟩
    · cases h2
  · obtain ⟨_, r, _, h, rfl, rfl, h2⟩ := Http.answer_ex (c := Http.run Demo.server Demo.webStore Demo.web) (i := 4)
      (fun x y z => x = .revoke ∧ z = ⟨200, .empty⟩ ∧ y.formValue g!"token" = g!"at") (by decide +kernel)
    exact ⟨r, h, h2⟩
  · obtain ⟨_, r, a, h, rfl, h1, h2⟩ := Http.answer_ex (c := Http.run Demo.server Demo.webStore Demo.web) (i := 6)
      (fun x y z => x = .token ∧ z.tokens?.isSome = true ∧ y.formValue g!"refresh_token" = g!"rt") (by decide +kernel)
    obtain ⟨b, hb⟩ := Option.isSome_iff_exists.1 h1
    obtain rfl := Http.Resp.tokens?_eq hb
    exact ⟨r, b, h, h2⟩
  · obtain ⟨_, r, _, h, rfl, rfl, h2⟩ := Http.answer_ex (c := Http.run Demo.server Demo.webStore Demo.web) (i := 7)
      (fun x y z => x = .revoke ∧ z = ⟨200, .empty⟩ ∧ y.formValue g!"token" = g!"rt") (by decide +kernel)
    exact ⟨r, h, h2⟩

/-- The check of the proof behind an accepted one. -/
theorem proof_behind {S : Http.Server} {own : Nat → Nat} {c : Http.Conf} {s : St} {ls : List Label}
    (hR : Refines S own c (run S.E s ls)) {i : Nat} {p : Str} (h : ProofAccepted c i p) :
    ∃ j q t, own j = i ∧ q.proof = p ∧ Answered (run S.E s ls) j (.dpop q) (.dpop (some t)) := by
  obtain ⟨r, rfl, ⟨hne, b, h⟩ | ⟨x, y, z, h⟩⟩ := h
  · obtain ⟨k', c1, cnf, g, a', t, md, e1, e2, e3, e4, _, _, _, _, e9, e10, e11⟩ := hR.tokens h
    cases cnf with
    | none => exact absurd (e10.2 hne) (by simp)
    | some k =>
      obtain ⟨j', h1, h2⟩ := e11 k rfl
      exact ⟨j', _, _, h1, rfl, h2⟩
  · obtain ⟨k', q', x', hk', e1, e2, e3⟩ := hR.behind h (by simp [NoResult])
    cases e3 with
    | par c0 ar t _ _ _ h4 =>
      obtain ⟨j', h1, h2⟩ := h4
      exact ⟨j', _, t, h1, rfl, h2⟩
    | parProof c0 _ _ => exact (Http.not_dpop e1 e2).elim

/-- **C90.** Requests served one after the other, each consulting the cache within 29
seconds of reading the clock: a proof of possession is accepted at most once, be it at
/token or at /par. -/
theorem C90_proof_once (S : Http.Server) (s : St) (hls : List Http.Label) (hs : Http.Sequential 0 hls)
    (i j : Nat) (p : Str) (hi : ProofAccepted (Http.run S s hls) i p) (hj : ProofAccepted (Http.run S s hls) j p)
    (hpi : Prompt (logOf (Http.run S s hls)) i) (hpj : Prompt (logOf (Http.run S s hls)) j) : i = j := by
  obtain ⟨ls, own, hR, hseq⟩ := C87_refines S s hls
  obtain ⟨hs', _⟩ := hseq hs
  obtain ⟨k, q, t, h1, h2, h3⟩ := proof_behind hR hi
  obtain ⟨k', q', t', h1', h2', h3'⟩ := proof_behind hR hj
  obtain ⟨φ, p1, p2⟩ := hR.pos
  have prompt : ∀ {x y}, own x = y → Prompt (logOf (Http.run S s hls)) y → Prompt (run S.E s ls) x := by
    rintro x y rfl hp n m e e' hn hm hlt ht ht' hc hc'
    exact hp (φ n) (φ m) (relabel own e) (relabel own e') (p2 n e hn) (p2 m e' hm) (p1 _ _ hlt) (congrArg own ht) (congrArg own ht') hc hc'
  by_cases hne : k = k'
  · rw [← h1, ← h1', hne]
  · exact absurd h3' (C39_no_replay S.E s ls hs' k k' hne q q' t t' h3 (h2.trans h2'.symm) (prompt h1 hpi) (prompt h1' hpj))

/-- A redemption with a proof of possession, whose calls take no time. -/
example : Http.Sequential 0 (Demo.webAuthorize 0 ++ Demo.webProof 1) ∧
    ProofAccepted (Http.run Demo.server Demo.webStore (Demo.webAuthorize 0 ++ Demo.webProof 1)) 1 g!"proof" ∧
    Prompt (logOf (Http.run Demo.server Demo.webStore (Demo.webAuthorize 0 ++ Demo.webProof 1))) 1 := by
  refine ⟨by decide +kernel, ?_, ?_⟩
  · obtain ⟨_, r, a, h, rfl, h1, h2⟩ := Http.answer_ex
      (c := Http.run Demo.server Demo.webStore (Demo.webAuthorize 0 ++ Demo.webProof 1)) (i := 1)
      (fun x y z => x = .token ∧ z.tokens?.isSome = true ∧ y.dpop = g!"proof") (by decide +kernel)
    obtain ⟨b, hb⟩ := Option.isSome_iff_exists.1 h1
    obtain rfl := Http.Resp.tokens?_eq hb
    exact ⟨r, h2, Or.inl ⟨by decide, b, h⟩⟩
  · intro n m e e' h1 h2 _ _ _ _ _
    have h : ((Http.run Demo.server Demo.webStore (Demo.webAuthorize 0 ++ Demo.webProof 1)).log.all fun e =>
        e.time == 100 * second) = true := by decide +kernel
    have k1 := List.all_eq_true.1 h e (List.mem_of_getElem? h1)
    have k2 := List.all_eq_true.1 h e' (List.mem_of_getElem? h2)
    simp at k1 k2
    omega

/-- **C90.** Over HTTP the device flow never completes: no approval at /device succeeds and
no device code is ever exchanged at /token. -/
theorem C90_device_never (S : Http.Server) (s : St) (hls : List Http.Label) (hE : s.heap = []) (i : Nat) (r : Http.Req) :
    ¬ Http.Answered (Http.run S s hls) i .device r ⟨200, .empty⟩ ∧
    (r.formValue g!"grant_type" = g!"urn:ietf:params:oauth:grant-type:device_code" →
      ∀ b, ¬ Http.Answered (Http.run S s hls) i .token r ⟨200, .tokens b⟩) := by
  obtain ⟨ls, own, hR, _⟩ := C87_refines S s hls
  obtain ⟨n1, n2⟩ := C35_never_completes (E := S.E) hE ls
  constructor
  · intro h
    obtain ⟨k', q', x', hk', e1, e2, e3⟩ := hR.behind h (by simp [NoResult])
    cases e3 with
    | device u _ _ =>
      obtain ⟨a, rfl, _⟩ := exec_map e1.exec
      cases e2 with
      | approved _ hg => rw [n1 _ _ _ e1] at hg; cases hg
  · intro hg b hb
    obtain ⟨k', c1, cnf, g, a', t, md, e1, e2, e3, e4, _, _, _, _, e9, _⟩ := hR.tokens hb
    obtain rfl := Http.formGrant_device e9 hg
    exact n2 _ _ _ _ e2 rfl (Or.inl (by simp [e4]))

/-! ### Whom tokens speak for -/

/-- **C88** over HTTP. Any interleaving: every token handed to the store was asked for at
/token by an authenticated client, names this client (as registered) and the issuer of the
server, and speaks for the user only if the user had logged in at /authorize before, under
the name by which the client of that request knows the user; otherwise it has no subject
and comes from client credentials. -/
theorem C88_tokens_speak_for (S : Http.Server) (s : St) (hls : List Http.Label) (hE : Empty s)
    (hK : NoKeyClash S.E (logOf (Http.run S s hls))) (e : Entry) (he : e ∈ (Http.run S s hls).log) (iss : Str) (t : Token)
    (hc : e.cmd = .tkCreate iss t) :
    ∃ md r c0 cl, t.metadata = some md ∧ iss = S.issuer ∧ md.issuer = S.issuer ∧
      Http.Asked (Http.run S s hls) e.tid .token r ∧ FromClient S.P r (callsOf S.E e.tid (Http.run S s hls).log) c0 ∧
      s.clients c0.clientId = some cl ∧ md.clientId = cl.clientId ∧
      ((∃ k rk clk u ar e0 code cs, UserAt S s (Http.run S s hls) k rk clk u md.subject ar ∧
          e0 ∈ (Http.run S s hls).log ∧ e0.tid = k ∧ e0.cmd = .csReg S.issuer code cs ∧ cs.subject = md.subject) ∨
       (md.subject = [] ∧ t.tokenType = .accessToken ∧ ∃ k rk ck, Http.Asked (Http.run S s hls) k .token rk ∧
          rk.formValue g!"grant_type" = g!"client_credentials" ∧
          FromClient S.P rk (callsOf S.E k (Http.run S s hls).log) ck)) := by
  obtain ⟨ls, own, hR, _⟩ := C87_refines S s hls
  have hK' := hR.noKeyClash hK
  obtain ⟨e', h1, rfl⟩ := hR.back he (by rw [hc]; rfl)
  have hc' : e'.cmd = .tkCreate iss t := hc
  obtain ⟨n, hn⟩ := List.getElem?_of_mem h1
  obtain ⟨md, hm, hiss⟩ := create_issuer hE hK' ⟨e', hn, hc'⟩
  obtain ⟨q, c0, cl, a1, a2, a3, a4⟩ := entry_tkCreate hn hc'
  obtain ⟨r, c1, b1, b2, b3, b4, b5⟩ := hR.client a1
  rw [a2] at b3; cases b3
  have hcl : s.clients c0.clientId = some cl := by
    refine Verif.client_found (E := S.E) (ls := ls) (i := e'.tid) ?_
    obtain ⟨m, e1, _, g1, g2, g3⟩ := mem_calls_take a3
    exact mem_callsOf_iff.2 ⟨m, e1, g1, g2, g3⟩
  have hid : md.clientId = cl.clientId := by
    have at_ : ∀ {tr md' cnf}, TokenSvc.ATAt tr cl md' cnf t → md.clientId = cl.clientId := by
      rintro tr md' cnf ⟨now, jti, v, _, _, rfl⟩; cases hm; rfl
    have rt_ : ∀ {tr md' cnf}, TokenSvc.RTAt tr cl md' cnf t → md.clientId = cl.clientId := by
      rintro tr md' cnf ⟨now, jti, v, _, _, rfl⟩; cases hm; rfl
    cases a4 with
    | code _ _ _ _ _ _ _ _ _ _ _ ht =>
      rcases ht with ht | ⟨_, ht⟩
      · exact at_ ht
      · exact rt_ ht
    | cc _ _ _ _ ht => exact at_ ht
    | device _ _ _ _ _ _ _ _ _ _ _ _ _ _ _ _ ht =>
      rcases ht with ht | ⟨_, ht⟩
      · exact at_ ht
      · exact rt_ ht
    | refresh _ _ _ _ _ _ _ _ _ _ _ _ _ _ ht =>
      rcases ht with ht | ht
      · exact at_ ht
      · exact rt_ ht
    | exchange _ _ _ _ _ _ _ _ _ _ _ _ _ _ _ _ _ _ => cases hm; rfl
  have hsi : iss = S.issuer := by
    rw [← b4]
    cases a4 with
    | refresh v rt md' _ _ _ _ hget _ _ _ hmd _ _ _ =>
      obtain ⟨m, e1, hmn, g1, g2, g3⟩ := mem_calls_take hget
      obtain ⟨m0, e0, t0, f1, f2, f3, f4, f5⟩ := token_origin' hE hK' g1 g3
      obtain ⟨md0, k1, k2⟩ := create_issuer hE hK' ⟨e0, f2, f3⟩
      rw [f5.metadata, k1] at hmd
      cases hmd; exact k2
    | _ => rfl
  refine ⟨md, r, c0, cl, hm, hsi, hiss.trans hsi, b1, b2, hcl, hid, ?_⟩
  obtain ⟨md2, k1, k2⟩ := C88_subject_origin S.E s ls hE hK' n iss t ⟨e', hn, hc'⟩
  rw [hm] at k1; cases k1
  rcases k2 with ⟨q', ⟨m, e0, code, cs, x1, x2, x3, x4, x5, x6⟩, y1, _⟩ | ⟨x1, x2, m, e0, t0, q', x3, x4, x5, x6, x7⟩
  · obtain ⟨rk, clk, u, ark, u1, u2, u3⟩ := hR.user x4
    rw [← y1] at u1
    exact Or.inl ⟨_, rk, clk, u, ark, relabel own e0, code, cs, u1, hR.mem (List.mem_of_getElem? x2), rfl,
      by rw [← hsi]; exact x3, by rw [x6, y1]⟩
  · obtain ⟨rk, ck, w1, w2, w3, w4, w5⟩ := hR.client x6
    exact Or.inr ⟨x1, x2, _, rk, ck, w1, Http.formGrant_credentials w5 x7, w2⟩

/-- Tokens for the user and for a client of its own account. -/
example : ∃ e ∈ (Http.run Demo.server Demo.webStore Demo.web).log, ∃ e' ∈ (Http.run Demo.server Demo.webStore Demo.web).log,
    ∃ i t i' t' md md', e.cmd = .tkCreate i t ∧ e'.cmd = .tkCreate i' t' ∧ t.metadata = some md ∧ t'.metadata = some md' ∧
      md.subject = g!"hello" ∧ md'.subject = [] := by
  have h : ((Http.run Demo.server Demo.webStore Demo.web).log.any fun e => match e.cmd with
      | .tkCreate _ t => decide (t.metadata.map (·.subject) = some g!"hello") | _ => false) = true ∧
      ((Http.run Demo.server Demo.webStore Demo.web).log.any fun e => match e.cmd with
      | .tkCreate _ t => decide (t.metadata.map (·.subject) = some []) | _ => false) = true := by decide +kernel
  obtain ⟨e, he, h1⟩ := List.any_eq_true.1 h.1
  obtain ⟨e', he', h2⟩ := List.any_eq_true.1 h.2
  split at h1
  · rename_i i t hc
    split at h2
    · rename_i i' t' hc'
      cases hm : t.metadata with
      | none => simp [hm] at h1
      | some md =>
        cases hm' : t'.metadata with
        | none => simp [hm'] at h2
        | some md' => exact ⟨e, he, e', he', i, t, i', t', md, md', hc, hc', hm, hm', by simpa [hm] using h1, by simpa [hm'] using h2⟩
    · cases h2
  · cases h1

/-- **C88** over HTTP. Any interleaving: when /introspect calls a token active, the token was
created at an earlier call of a /token request, and the subject, client and issuer named are
those it was created with; so the subject is the user logged in at /authorize, or empty. -/
theorem C88_introspected (S : Http.Server) (s : St) (hls : List Http.Label) (hE : Empty s)
    (hK : NoKeyClash S.E (logOf (Http.run S s hls))) (i : Nat) (r : Http.Req) (b : Http.ActiveBody)
    (h : Http.Answered (Http.run S s hls) i .introspect r ⟨200, .introspection (some b)⟩) :
    b.iss = S.issuer ∧ ∃ e t md re c0 cl, e ∈ (Http.run S s hls).log ∧ e.cmd = .tkCreate S.issuer t ∧
      t.value = r.formValue g!"token" ∧ t.metadata = some md ∧
      Http.Asked (Http.run S s hls) e.tid .token re ∧ FromClient S.P re (callsOf S.E e.tid (Http.run S s hls).log) c0 ∧
      s.clients c0.clientId = some cl ∧ b.clientId = cl.clientId ∧ b.scope = md.scope ∧ b.aud = md.audience ∧
      b.cnf = t.confirmation ∧
      ((∃ k rk clk u ar, UserAt S s (Http.run S s hls) k rk clk u b.sub ar) ∨ b.sub = []) := by
  obtain ⟨ls, own, hR, _⟩ := C87_refines S s hls
  obtain ⟨k', q', x', hk', e1, e2, e3⟩ := hR.behind h (by simp [NoResult])
  cases e3 with
  | introspect c1 _ =>
    cases e2 with
    | active a t md _ w1 w2 w3 w4 w5 w6 w7 w8 w9 w10 w11 w12 =>
      obtain ⟨cl, x, hx, hy⟩ := introspect_exec e1.introspect w1
      rcases hy with ⟨t', rfl, hy⟩ | ⟨_, t', hy, hn⟩
      · rw [w2] at hy; subst hy
        have hm : (⟨.tkGetVal S.issuer (r.formValue g!"token"), .ok (some t)⟩ : Ev) ∈ callsOf S.E k' (run S.E s ls).log := by
          rw [hx]; simp
        obtain ⟨n, e, g1, g2, g3⟩ := mem_callsOf_iff.1 hm
        obtain ⟨m, e0, t0, f1, f2, f3, f4, f5⟩ := token_origin' hE (hR.noKeyClash hK) g1 g3
        obtain ⟨md0, re, c0, cl0, z1, z2, z3, z4, z5, z6, z7, z8⟩ := C88_tokens_speak_for S s hls hE hK (relabel own e0)
          (hR.mem (List.mem_of_getElem? f2)) S.issuer t0 f3
        have hmd : md = md0 := by
          have := f5.metadata
          rw [w4, z1] at this
          exact Option.some.inj this
        subst hmd
        refine ⟨w9.trans z3, relabel own e0, t0, md, re, c0, cl0, hR.mem (List.mem_of_getElem? f2), f3, f4, z1, z4, z5, z6,
          w6.trans z7, w7, w8, w12.trans f5.confirmation, ?_⟩
        rcases z8 with ⟨k, rk, clk, u, ar, _, _, _, hu, _⟩ | ⟨hs, _⟩
        · exact Or.inl ⟨k, rk, clk, u, ar, by rw [w5]; exact hu⟩
        · exact Or.inr (w5.trans hs)
      · rw [w2] at hy; cases hy
        exact absurd w3 hn

end Verif.Props
