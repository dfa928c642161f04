import Verif.Spec.HttpComplete
import Verif.Proofs.Serve
import Verif.Proofs.Tokens
import Verif.Props.Complete
import Verif.Props.ClientAuth
import Verif.Proofs.Jose
import Verif.Proofs.StoreFacts

/-! Serving one HTTP request undisturbed. -/
namespace Verif
open Verif.Prog Verif.Spec Verif.Store
variable {E : Env}

theorem good_le {α : Type} {Φ : α → St → Prop} {p : Prog α} {m n : Nat} {s : St} (h : Good E Φ p m s) (hmn : m ≤ n) :
    Good E Φ p n s := by
  induction p generalizing m n s with
  | ret _ => exact h
  | panic => exact h
  | op c k ih =>
    cases m with
    | zero => exact h.elim
    | succ m =>
      cases n with
      | zero => omega
      | succ n => exact fun str hs => ih _ (h str hs) (by omega)

namespace Http
variable {S : Server}

theorem run_append (s : St) (ls ls' : List Label) : run S s (ls ++ ls') = ls'.foldl (step S) (run S s ls) := by
  simp [run, List.foldl_append]

/-- The log only grows. -/
theorem log_prefix (c : Conf) (ls : List Label) : ∃ es, (ls.foldl (step S) c).log = c.log ++ es ∧
    Linked S.E c.st es (ls.foldl (step S) c).st := by
  induction ls generalizing c with
  | nil => exact ⟨[], by simp, Adv.refl _⟩
  | cons l ls ih =>
    obtain ⟨es, h1, h2⟩ := ih (step S c l)
    simp only [List.foldl_cons]
    cases l with
    | arrive r => exact ⟨es, h1, h2⟩
    | tick d =>
      refine ⟨es, h1, ?_⟩
      cases es with
      | nil =>
        have h3 : Adv (step S c (.tick d)).st _ := h2
        exact Linked.adv (l := []) (show Linked S.E c.st [] (step S c (.tick d)).st from ⟨d, rfl⟩) h3
      | cons e es =>
        refine ⟨?_, h2.2⟩
        have h3 : Adv (step S c (.tick d)).st e.pre := h2.1
        exact Linked.adv (E := S.E) (l := []) (show Linked S.E c.st [] (step S c (.tick d)).st from ⟨d, rfl⟩) h3
    | run i ch =>
      revert h1 h2
      simp only [step]
      split
      · intro h1 h2
        exact ⟨_ :: es, by rw [h1]; simp, Adv.refl _, h2⟩
      · intro h1 h2
        exact ⟨es, h1, h2⟩

theorem since (s : St) (ls ls' : List Label) :
    Linked S.E (run S s ls).st (callsSince (run S s ls) (run S s (ls ++ ls'))) (run S s (ls ++ ls')).st := by
  obtain ⟨es, h1, h2⟩ := log_prefix (S := S) (run S s ls) ls'
  rw [run_append]
  unfold callsSince
  rw [h1]
  simpa using h2

theorem run_alone {Φ : Resp → St → Prop} {route : Route} {r : Req} :
    ∀ {chs : List Choice} {p : Prog Resp} {n : Nat} {c : Conf}
    {ths : List Thread}, Good S.E Φ p n c.st → Faultless chs → n ≤ chs.length → c.threads = ths ++ [⟨route, r, p⟩] →
    ∃ a, ((chs.map (Label.run ths.length)).foldl (step S) c).threads = ths ++ [⟨route, r, .ret a⟩] ∧
      Φ a ((chs.map (Label.run ths.length)).foldl (step S) c).st := by
  intro chs
  induction chs with
  | nil =>
    intro p n c ths h hu hn ht
    cases p with
    | ret a => exact ⟨a, ht, h⟩
    | panic => exact h.elim
    | op c k =>
      cases n with
      | zero => exact h.elim
      | succ n => simp at hn
  | cons ch chs ih =>
    intro p n c ths h hu hn ht
    simp only [List.map_cons, List.foldl_cons]
    have hget : c.threads[ths.length]? = some ⟨route, r, p⟩ := by rw [ht]; simp
    cases p with
    | ret a =>
      have hst : step S c (.run ths.length ch) = c := by simp [step, hget]
      rw [hst]
      exact ih (p := .ret a) (n := 0) h (fun x hx => hu x (by simp [hx])) (by omega) ht
    | panic => exact h.elim
    | op cm k =>
      cases n with
      | zero => exact h.elim
      | succ n =>
        obtain ⟨g1, g2⟩ := hu ch (by simp)
        obtain ⟨f, str⟩ := ch
        simp only at g1 g2
        subst g1
        refine ih (c := step S c (.run ths.length { str := str })) (n := n) (p := k (exec S.E cm { str := str } c.st).1)
          ?_ (fun x hx => hu x (by simp [hx])) (by simp at hn; omega) ?_
        · simp only [step, hget]
          exact h str g2
        · simp only [step, hget, Entry.res]
          rw [ht]; simp

/-- Serving an HTTP request undisturbed, after any history, answers it as computed. -/
theorem serve_good {Φ : Resp → St → Prop} {s : St} {ls : List Label} {route : Route} {r : Req} {n : Nat}
    {chs : List Choice} (h : Good S.E Φ (serve S route r) n (run S s ls).st) (hu : Faultless chs) (hn : n ≤ chs.length)
    {i : Nat} (hi : (run S s ls).threads.length = i) :
    ∃ a, Answered (run S s (ls ++ serving i route r chs)) i route r a ∧
      Φ a (run S s (ls ++ serving i route r chs)).st := by
  subst hi
  obtain ⟨a, h1, h2⟩ := run_alone (c := step S (run S s ls) (.arrive route r)) (ths := (run S s ls).threads)
    (route := route) (r := r) h hu hn rfl
  have hrun : run S s (ls ++ serving (run S s ls).threads.length route r chs) =
      ((chs.map (Label.run (run S s ls).threads.length)).foldl (step S) (step S (run S s ls) (.arrive route r))) := by
    rw [run_append]; rfl
  rw [hrun]
  exact ⟨a, ⟨_, by rw [h1]; simp; rfl, rfl, rfl, rfl⟩, h2⟩

/-! ### Client authentication, request objects and proofs -/

theorem postValue_some {r : Req} {k v : Str} (h : r.post k = some v) : r.postValue k = v := by simp [Req.postValue, h]

theorem good_clientAuth {Φ : Resp → St → Prop} {r : Req} {c : Client} {st : St} {n : Nat} {h : Option Client → Prog Resp}
    (hp : Presents S.P st r c) (hh : Good S.E Φ (h (some c)) n st) : Good S.E Φ (clientAuth S r h) (n + 2) st := by
  cases hp with
  | named id hq hne hreg hpub =>
    have e : r.get g!"client_id" = id := by simp [Req.get, hq]
    unfold clientAuth
    simp only [e, hne, ne_eq, not_false_eq_true, if_true, Prog.call, bind_op, bind_ret, Good, exec, faulty, hreg, found,
      hpub]
    exact fun _ _ => good_le hh (by omega)
  | key a t cl keys k hq hty ha hne hp hc hsame hiss haud hjti h0 hexp hreg hj hks hk hu hv =>
    have e : r.get g!"client_id" = [] := by simp [Req.get, hq]
    have hcomp : cl.complete = true := by
      simp [ClientAuth.PrivClaims.complete, hiss, hsame ▸ hiss, haud, hjti, Nat.pos_iff_ne_zero.1 h0]
    have hlt : ¬ cl.exp < Device.unix st.clock := by
      have : Device.unix st.clock = seconds st.clock := rfl
      omega
    have hsig : Jose.validateSignature (some keys) (some t) = true :=
      Jose.validateSignature_iff.2 ⟨k, hk, hu, hv⟩
    unfold clientAuth
    simp only [e, ne_eq, not_true, if_false, postValue_some hty, postValue_some ha,
      show g!"urn:ietf:params:oauth:client-assertion-type:jwt-bearer" = ClientAuth.typeBearer from rfl, if_true,
      ClientAuth.privateKeyJwt, hne, hp, hc, hcomp, hsame, hlt, ClientAuth.privateKeyCheck, Prog.call, bind_op, bind_ret,
      pure_eq, Good, exec, faulty, hsame ▸ hreg, found, hj, hks, hsig, afterAuth, Bool.false_eq_true]
    exact fun _ _ _ _ => hh

theorem decode_signed {c : Client} {raw : Str} {ar : AuthzRequest} (h : ProperlySigned S c raw ar) :
    decodeRequest S c raw = some ar := by
  obtain ⟨hne, t, keys, k, h1, h2, h3, h4, h5, h6, h7⟩ := h
  unfold decodeRequest Jose.defaultClaims
  have : Jose.firstKey (Jose.claims S.requestDec t) (if t.kid ≠ [] then keys.filter (fun k => k.kid = t.kid) else keys) =
      some ar := by
    refine Jose.firstKey_claims.2 ⟨⟨k, ?_, h4, h6⟩, h7⟩
    split
    · rename_i hkid
      rcases h5 with h5 | h5
      · exact absurd h5 hkid
      · simp [h3, h5]
    · exact h3
  simp only [hne, if_false, h1, h2, Option.map_some, this, Jose.Out.ofOption]

theorem good_proof {r : Req} {jkt : Str} {st : St} (h : Proves S st r jkt) (hd : r.dpop ≠ []) (hm : r.method = g!"POST") :
    Good S.E (fun o st' => o = some jkt ∧ ∃ P, st' = { st with proofs := P })
      (DPoP.verify S.E { htm := r.method, htu := r.url, proof := r.dpop }) 4 st := by
  obtain ⟨u, p, key, c, h1, h2, h3, h4, h5, h6, h7, h8, h9, h10, h11, h12, h13⟩ := h.ex
  have hurl : r.url ≠ [] := by simp [Req.url, DPoP.Target.clean]
  have hop : DPoP.open_ p = some (key, c) := by
    simp [DPoP.open_, h4, h5, h6, DPoP.headerType]
  have hold : DPoP.tooOld st.clock c = false := by
    have hs : seconds st.clock = st.clock / 1000000000 := rfl
    have hu : DPoP.unixMinus st.clock = (st.clock - DPoP.threshold) / 1000000000 := by
      have : ¬ st.clock < DPoP.threshold := by have : DPoP.threshold = 15000000000 := rfl; omega
      simp [DPoP.unixMinus, this]
    have ht : DPoP.threshold = 15000000000 := rfl
    have : ¬ DPoP.unixMinus st.clock > c.iat := by rw [hu]; omega
    exact decide_eq_false this
  have hnew : DPoP.tooNew st.clock c = false := by
    have hs : seconds st.clock = st.clock / 1000000000 := rfl
    have ht : DPoP.threshold = 15000000000 := rfl
    have : ¬ DPoP.unix (st.clock + DPoP.threshold) < c.iat := by unfold DPoP.unix; omega
    exact decide_eq_false this
  have hmem : Go.toUpper g!"POST" ∈ DPoP.methods := by decide
  unfold DPoP.verify
  simp only [hm, show g!"POST" ≠ [] by decide, hurl, hd, or_self, if_false, h1, hmem, not_true, h3, hop, h2, h7, h8, ne_eq,
    DPoP.fresh, Prog.call, bind_op, bind_ret, pure_eq, Good, exec, hold, hnew, Bool.false_eq_true, Bool.not_false, if_true,
    DPoP.replay, faulty, DPoP.finish, h13]
  intro _ _ _ _ _ _
  cases hp : st.proofs (DPoP.proofId S.E c.jti) with
  | none =>
    simp only [Good, exec, faulty]
    exact fun _ _ => ⟨trivial, _, rfl⟩
  | some e =>
    have : ¬ st.clock ≤ e := by have := h12 e hp; omega
    simp only [this, decide_false, Good, exec, faulty]
    exact fun _ _ => ⟨trivial, _, rfl⟩

/-! ### The services -/

theorem good_authorizeWith {iss sub : Str} {ar : AuthzRequest} {cl : Client} {st : St} (hwf : WellFormed E ar)
    (hcl : st.clients ar.clientId = some cl) (hreg : Registered cl ar) :
    Good E (fun a st' => ∃ code eff, code ≠ [] ∧ Effective ar eff ∧
      a = { code := code, state := ar.state, redirectUri := ar.redirectUri, clientId := ar.clientId, expiresIn := 60, issuer := iss } ∧
      st' = { st with codes := (upd st.codes (codeKey E iss code)
        (some ({ issuer := iss, subject := sub, request := some eff }, st.clock + 60 * second))) })
      (Authorization.authorizeWith E iss sub (some ar)) 3 st := by
  obtain ⟨eff, hck⟩ := Props.checkRequest_complete hwf
  obtain ⟨r', e, _, he, _⟩ := Authorization.checkRequest_ok hck
  simp at e; subst e
  have ec : eff.clientId = ar.clientId := by have := congrArg AuthzRequest.clientId he.rest; simpa using this
  have es : eff.state = ar.state := by have := congrArg AuthzRequest.state he.rest; simpa using this
  have er : eff.redirectUri = ar.redirectUri := by have := congrArg AuthzRequest.redirectUri he.rest; simpa using this
  simp only [Authorization.authorizeWith, Authorization.validate, hck, Prog.call, bind_op, bind_ret, pure_eq, Good, exec,
    faulty, ec, hcl, found, Props.checkClient_complete he hreg, gen]
  intro _ _ code hcode _ _
  exact ⟨code, eff, hcode, he, by simp [es, er], rfl⟩

theorem good_authorize {iss sub : Str} {c0 : Option Client} {ar0 ar : AuthzRequest} {cl : Client} {st : St}
    (hS : S.issuer = iss) (hiss : iss ≠ []) (hsub : sub ≠ []) (hact : ActsOn S st ar0 ar) (hwf : WellFormed S.E ar)
    (hcl : st.clients ar.clientId = some cl) (hreg : Registered cl ar) :
    Good S.E (fun a st' => ∃ code eff R, code ≠ [] ∧ Effective ar eff ∧
      a = { code := code, state := ar.state, redirectUri := ar.redirectUri, clientId := ar.clientId, expiresIn := 60, issuer := iss } ∧
      st' = { st with
        requests := R, codes := (upd st.codes (codeKey S.E iss code)
          (some ({ issuer := iss, subject := sub, request := some eff }, st.clock + 60 * second))) })
      (Authorization.authorize S.E (some { issuer := iss, client := c0, subject := sub, request := some ar0 })) 5 st := by
  subst hS
  cases hact with
  | itself hu =>
    simp only [Authorization.authorize, hiss, hsub, if_false, hu]
    refine good_le (good_mono (good_authorizeWith hwf hcl hreg) ?_) (show 3 ≤ 5 by omega)
    rintro a st' ⟨code, eff, h1, h2, h3, h4⟩
    exact ⟨code, eff, st.requests, h1, h2, h3, h4⟩
  | pushed uri exp _ hu hok hst hle =>
    simp only [Authorization.authorize, hiss, hsub, if_false, hu, hok, not_true, Prog.call, bind_op, bind_ret, Good, exec,
      faulty, hst, live, hle, if_true, found]
    intro _ _ _ _
    refine good_mono (good_authorizeWith hwf hcl hreg) ?_
    rintro a st' ⟨code, eff, h1, h2, h3, h4⟩
    exact ⟨code, eff, _, h1, h2, h3, h4⟩

/-- /authorize. -/
theorem good_authorizeHandler {r : Req} {u sub : Str} {c cl : Client} {ar0 ar : AuthzRequest} {st : St}
    (hiss : S.issuer ≠ []) (hsub : sub ≠ []) (hm : r.method = g!"GET") (hl : LoggedIn r u)
    (hc : st.clients (r.get g!"client_id") = some c) (hk : KnownAs S c u sub)
    (hsig : ProperlySigned S c (r.get g!"request") ar0) (hact : ActsOn S st ar0 ar) (hwf : WellFormed S.E ar)
    (hcl : st.clients ar.clientId = some cl) (hreg : Registered cl ar)
    (hjarm : ∀ x, (S.jarmSer x).isSome = true) :
    Good S.E (fun a st' => ∃ code t eff R, a = ⟨302, .authorization ar.redirectUri .queryJWT t⟩ ∧ code ≠ [] ∧
      S.jarmSer { state := ar.state, iss := S.issuer, aud := ar.clientId, code := code, exp := seconds st.clock + 60 } = some t ∧
      Effective ar eff ∧
      st' = { st with
        requests := R, codes := (upd st.codes (codeKey S.E S.issuer code)
          (some ({ issuer := S.issuer, subject := sub, request := some eff }, st.clock + 60 * second))) })
      (serve S .authorize r) 7 st := by
  obtain ⟨rfl, hb⟩ := hl
  have hsubj : (if c.subjectType = g!"pairwise" then Lib.pairwise S.pairHash S.pairSalt c.sectorIdentifier g!"hello"
      else some g!"hello") = some sub := by
    rcases hk with ⟨h1, h2⟩ | ⟨h1, h2⟩
    · rw [if_neg h1, h2]
    · rw [if_pos h1, h2]
  have t1 : ¬ ((Go.trimSpace g!"hello").length < 1 ∨ (Go.trimSpace g!"world").length < 1) := by decide
  simp only [serve, basicAuth, hb, t1, if_false, ne_eq, not_true, or_self, authorizeHandler, hm,
    show ¬ g!"hello" = [] by decide, Prog.call, bind_op, bind_ret, Good, exec, faulty, hc, found, hsubj, decode_signed hsig]
  intro _ _
  refine good_bind (m := 5) (n := 1) (good_authorize rfl hiss hsub hact hwf hcl hreg) ?_
  rintro a st' ⟨code, eff, R, h1, h2, rfl, rfl⟩
  have hst : ar.state ≠ [] := by intro h; have := hwf.state; rw [h] at this; simp at this
  simp only [Bool.false_eq_true, if_false, deliver, hwf.redirect.2, not_true, deliveryOf,
    show ¬ ([] : Str) = Oidc.responseTypeCode by decide, show ¬ ([] : Str) = Oidc.modeQueryJWT by decide,
    show ¬ ([] : Str) = Oidc.modeFragmentJWT by decide, show ¬ ([] : Str) = Oidc.modeFormPostJWT by decide,
    Sign.jarmEncode, hiss, jarmResp, hwf.client, h1, hst, show ¬ (60 : Nat) = 0 by decide, Prog.call, bind_op, bind_ret,
    pure_eq, Good, exec]
  intro _ _
  have hexp : Device.unix (st.clock + 60 * 1000000000) = seconds st.clock + 60 := seconds_add st.clock 60
  rw [hexp]
  cases hj : S.jarmSer { state := ar.state, iss := S.issuer, aud := ar.clientId, code := code, exp := seconds st.clock + 60 } with
  | none => have := hjarm { state := ar.state, iss := S.issuer, aud := ar.clientId, code := code, exp := seconds st.clock + 60 }; rw [hj] at this; simp at this
  | some t => exact ⟨code, t, eff, R, rfl, h1, hj, h2, rfl⟩

/-- What is stored under the value of an access token just issued. -/
structure Fresh (E : Env) (st : St) (now : Nat) (iss v sub clientId scope aud : Str) (cnf : Option Cnf) : Prop where
  ex : ∃ t md, st.tokVal (tokenKey E iss v) = some t ∧ t.status = .active ∧ t.confirmation = cnf ∧ t.metadata = some md ∧
    md.issuer = iss ∧ md.subject = sub ∧ md.clientId = clientId ∧ md.scope = scope ∧ md.audience = aud ∧
    md.notBefore = seconds now + 1 ∧ seconds now + 3600 ≤ md.expiresAt

/-- `Refreshable` under any issuer. -/
structure Renewable (E : Env) (st : St) (iss v id : Str) (g : Granted) (exp : Nat) : Prop where
  ex : ∃ t md, st.tokVal (tokenKey E iss v) = some t ∧ st.tokId id = some t ∧ t.tokenId = id ∧
    t.value = tokenKey E iss v ∧ t.status = .active ∧ t.tokenType = .refreshToken ∧ t.metadata = some md ∧
    t.confirmation = g.cnf ∧ md.issuer = iss ∧ md.subject = g.sub ∧ md.clientId = g.clientId ∧ md.scope = g.scope ∧
    md.audience = g.audience ∧ md.expiresAt = exp

theorem good_codeTokens (cl : Client) (q : TokenReq) (sub : Str) (ar : AuthzRequest) (s : St)
    (ho : HasWord g!"openid" ar.scope) :
    Good E (fun a s' => a.goErr = false ∧ s'.clock = s.clock ∧ (∃ t md, a.accessToken = some t ∧ t.value ≠ [] ∧
        t.metadata = some md ∧ md.scope = ar.scope ∧ md.expiresAt = seconds s.clock + 3600 ∧
        Fresh E s' s.clock q.issuer t.value sub cl.clientId ar.scope ar.audience q.tokenConfirmation) ∧
      (HasWord g!"offline_access" ar.scope → ∃ t id, a.refreshToken = some t ∧ t.value ≠ [] ∧
        Renewable E s' q.issuer t.value id ⟨sub, cl.clientId, ar.scope, ar.audience, q.tokenConfirmation⟩ (seconds s.clock + 604800)))
      (TokenSvc.codeTokens cl q sub ar) 8 s := by
  have e1 : StringArray.contains (Go.fields ar.scope) Oidc.scopeOpenID = true := (Verif.contains_fields ar.scope g!"openid").2 ho
  have ex : Device.unix (s.clock + 3600 * 1000000000) = seconds s.clock + 3600 := seconds_add s.clock 3600
  have ex' : Device.unix (s.clock + 7 * 86400 * 1000000000) = seconds s.clock + 604800 := seconds_add s.clock 604800
  unfold TokenSvc.codeTokens
  simp only [e1, if_true]
  refine good_bind (m := 4) (n := 4) (good_accessToken cl _ _ s) ?_
  rintro _ s' ⟨jti, v, hv, rfl, rfl⟩
  simp only
  split
  · refine good_bind (m := 4) (n := 0) (good_refreshToken cl _ _ _) ?_
    rintro _ s'' ⟨jti', v', hv', rfl, rfl⟩
    refine ⟨rfl, rfl, ⟨_, _, rfl, hv, rfl, rfl, ex, ?_⟩, fun _ => ⟨_, jti', rfl, hv', ?_⟩⟩
    rotate_left
    · constructor
      simp only [create, upd, if_true]
      exact ⟨_, _, rfl, if_pos rfl, rfl, rfl, rfl, rfl, rfl, rfl, rfl, rfl, rfl, rfl, rfl, ex'⟩
    constructor
    simp only [create, upd]
    by_cases hk : tokenKey E q.issuer v = tokenKey E q.issuer v'
    · rw [if_pos hk]
      refine ⟨_, _, rfl, rfl, rfl, rfl, rfl, rfl, rfl, rfl, rfl, rfl, ?_⟩
      show seconds s.clock + 3600 ≤ Device.unix (s.clock + 7 * 86400 * 1000000000)
      omega
    · rw [if_neg hk, if_pos trivial]
      refine ⟨_, _, rfl, rfl, rfl, rfl, rfl, rfl, rfl, rfl, rfl, rfl, ?_⟩
      exact Nat.le_of_eq ex.symm
  · rename_i hno
    refine ⟨rfl, rfl, ⟨_, _, rfl, hv, rfl, rfl, ex, ?_⟩, fun h => absurd ((Verif.contains_fields ar.scope g!"offline_access").2 h) hno⟩
    constructor
    simp only [create, upd, if_true]
    exact ⟨_, _, rfl, rfl, rfl, rfl, rfl, rfl, rfl, rfl, rfl, rfl, Nat.le_of_eq ex.symm⟩

/-- The redemption of a stored session. -/
theorem good_redeem {q : TokenReq} {g : GrantCode} {cl : Client} {ar eff : AuthzRequest} {sub : Str} {st : St} {exp : Nat}
    (hsess : st.codes (codeKey E q.issuer g.code) = some ({ issuer := q.issuer, subject := sub, request := some eff }, exp))
    (hlive : st.clock ≤ exp) (heff : Effective ar eff) (hwf : WellFormed E ar) (ho : HasWord g!"openid" eff.scope)
    (hcl : st.clients cl.clientId = some cl) (hgt : MemFold g!"authorization_code" cl.grantTypes)
    (hreg : MemFold ar.redirectUri cl.redirectUris) (hi : q.issuer ≠ []) (hurl : E.parseRequestURI q.issuer = true)
    (hqc : q.client = some cl) (hqt : q.grantType = g!"authorization_code") (hqg : q.grant = some (.authorizationCode g))
    (hne : g.code ≠ []) (hrunes : Go.runeCount g.code ≤ 1024) (hredir : g.redirectUri = ar.redirectUri)
    (hver : Go.b64 (E.sha256 g.codeVerifier) = ar.codeChallenge) (hver1 : 43 ≤ g.codeVerifier.length)
    (hver2 : g.codeVerifier.length ≤ 128) :
    Good E (fun a s' => a.goErr = false ∧ s'.clock = st.clock ∧ (∃ t md, a.accessToken = some t ∧ t.value ≠ [] ∧
        t.metadata = some md ∧ md.scope = eff.scope ∧ md.expiresAt = seconds st.clock + 3600 ∧
        Fresh E s' st.clock q.issuer t.value sub cl.clientId eff.scope ar.audience q.tokenConfirmation) ∧
      (HasWord g!"offline_access" eff.scope → ∃ t id, a.refreshToken = some t ∧ t.value ≠ [] ∧
        Renewable E s' q.issuer t.value id ⟨sub, cl.clientId, eff.scope, ar.audience, q.tokenConfirmation⟩ (seconds st.clock + 604800)))
      (TokenSvc.token E (some q)) 11 st := by
  have es : eff.redirectUri = ar.redirectUri := by have := congrArg AuthzRequest.redirectUri heff.rest; simpa using this
  have ec : eff.codeChallenge = ar.codeChallenge := by have := congrArg AuthzRequest.codeChallenge heff.rest; simpa using this
  have em : eff.codeChallengeMethod = ar.codeChallengeMethod := by
    have := congrArg AuthzRequest.codeChallengeMethod heff.rest; simpa using this
  have ea : eff.audience = ar.audience := by have := congrArg AuthzRequest.audience heff.rest; simpa using this
  have hchk : TokenSvc.codeChecks E cl g eff = none := by
    unfold TokenSvc.codeChecks
    have e2 : StringArray.contains cl.redirectUris g.redirectUri = true := (contains_iff _ _).2 (hredir ▸ hreg)
    have e3 : eff.codeChallengeMethod = Oidc.methodS256 := by rw [em]; exact hwf.method
    simp [es, hredir, hredir ▸ e2, e3, ec, hver]
  have hv : TokenSvc.validateRequest (some q) = none := by
    simp [TokenSvc.validateRequest, hi, hqc, hqt, hqg, Oidc.grantAuthorizationCode]
  have hdisp : TokenSvc.dispatch E (some cl) q = TokenSvc.authorizationCode E (some cl) q g := by
    simp [TokenSvc.dispatch, hqt, hqg, Oidc.grantClientCredentials, Oidc.grantAuthorizationCode]
  have hgt' : StringArray.contains cl.grantTypes Oidc.grantAuthorizationCode = true := (contains_iff _ _).2 hgt
  have c1 : ¬ (g.code = [] ∨ g.codeVerifier = [] ∨ g.redirectUri = []) := by
    rintro (h | h | h)
    · exact hne h
    · rw [h] at hver1; simp at hver1
    · exact hwf.redirect.1 (hredir ▸ h)
  refine good_token (n := 10) hv hqc hcl ?_
  simp only [hdisp, TokenSvc.authorizationCode, hi, hurl, hgt', c1, show ¬ Go.runeCount g.code > 1024 by omega,
    show ¬ g.codeVerifier.length < 43 by omega, show ¬ g.codeVerifier.length > 128 by omega, if_false, not_true, Prog.call,
    bind_op, bind_ret, Good, exec, faulty, hsess, live, hlive, if_true, found]
  intro _ _ _ _
  simp only [hchk]
  rw [← ea]
  exact good_codeTokens cl q sub eff { st with codes := (upd st.codes (codeKey E q.issuer g.code) none) } ho

theorem good_tokenAnswer {b : Bool} {a : TokenResp} {t : Token} {md : TokenMeta} {st : St} (hg : a.goErr = false)
    (ha : a.accessToken = some t) (hm : t.metadata = some md) (he : md.expiresAt = seconds st.clock + 3600) :
    Good E (fun o st' => st' = st ∧ o = ⟨200, .tokens {
        accessToken := t.value, expiresIn := 3600, tokenType := if b then g!"DPoP" else g!"Bearer", scope := md.scope,
        refreshToken := (a.refreshToken.map (·.value)).getD [] }⟩)
      (tokenAnswer b a) 1 st := by
  unfold tokenAnswer
  simp only [hg, Bool.false_eq_true, if_false, ha, hm, Prog.call, bind_op, bind_ret, pure_eq, Good, exec]
  intro _ _
  have : (md.expiresAt + 2 ^ 64 - Device.unix st.clock % 2 ^ 64) % 2 ^ 64 = 3600 := by
    have e : Device.unix st.clock = seconds st.clock := rfl
    rw [he, e]
    omega
  rw [this]
  exact ⟨trivial, rfl⟩

/-- /token. -/
theorem good_tokenHandler {r : Req} {cl : Client} {ar eff : AuthzRequest} {sub code : Str} {st : St} {exp : Nat}
    {cnf : Option Cnf}
    (hsess : st.codes (codeKey S.E S.issuer code) = some ({ issuer := S.issuer, subject := sub, request := some eff }, exp))
    (hlive : st.clock ≤ exp) (heff : Effective ar eff) (hwf : WellFormed S.E ar) (ho : HasWord g!"openid" eff.scope)
    (hp : Presents S.P st r cl) (hcl : st.clients cl.clientId = some cl)
    (hgt : MemFold g!"authorization_code" cl.grantTypes)
    (hreg : MemFold ar.redirectUri cl.redirectUris) (hi : S.issuer ≠ []) (hurl : S.E.parseRequestURI S.issuer = true)
    (hne : code ≠ []) (hrunes : Go.runeCount code ≤ 1024) (hr : RedeemsFor S r code ar) (hb : Binding S st r cl cnf) :
    Good S.E (fun o st' => st'.clock = st.clock ∧ ∃ b, o = ⟨200, .tokens b⟩ ∧ b.accessToken ≠ [] ∧ b.expiresIn = 3600 ∧
        b.tokenType = (if cnf.isSome then g!"DPoP" else g!"Bearer") ∧ b.scope = eff.scope ∧
        (HasWord g!"offline_access" eff.scope → b.refreshToken ≠ [] ∧ ∃ id, Refreshable S st' b.refreshToken id
          ⟨sub, cl.clientId, eff.scope, ar.audience, cnf⟩ (seconds st.clock + 604800)) ∧
        Fresh S.E st' st.clock S.issuer b.accessToken sub cl.clientId eff.scope ar.audience cnf)
      (serve S .token r) 18 st := by
  have hgr : grantOf r = some (.authorizationCode ⟨code, ar.redirectUri, r.formValue g!"code_verifier"⟩) := by
    simp [grantOf, hr.grant, Oidc.grantAuthorizationCode, hr.code, hr.redirect]
  have key : ∀ st1 : St, st1.codes = st.codes → st1.clock = st.clock → st1.clients = st.clients →
      Good S.E (fun o st' => st'.clock = st.clock ∧ ∃ b, o = ⟨200, .tokens b⟩ ∧ b.accessToken ≠ [] ∧ b.expiresIn = 3600 ∧
        b.tokenType = (if cnf.isSome then g!"DPoP" else g!"Bearer") ∧ b.scope = eff.scope ∧
        (HasWord g!"offline_access" eff.scope → b.refreshToken ≠ [] ∧ ∃ id, Refreshable S st' b.refreshToken id
          ⟨sub, cl.clientId, eff.scope, ar.audience, cnf⟩ (seconds st.clock + 604800)) ∧
        Fresh S.E st' st.clock S.issuer b.accessToken sub cl.clientId eff.scope ar.audience cnf)
      (TokenSvc.token S.E (some (tokenMsg S r cl cnf)) >>= tokenAnswer cnf.isSome) 12 st1 := by
    intro st1 h1 h2 h3
    refine good_bind (m := 11) (n := 1) (good_redeem (g := ⟨code, ar.redirectUri, r.formValue g!"code_verifier"⟩)
      (cl := cl) (ar := ar) (eff := eff) (sub := sub) (exp := exp) (by rw [h1]; exact hsess) (by rw [h2]; exact hlive) heff hwf ho
      (by rw [h3]; exact hcl) hgt hreg hi hurl rfl hr.grant hgr hne hrunes rfl hr.verifier hr.long hr.short) ?_
    rintro a s' ⟨g1, g2, ⟨t, md, g3, g4, g5, g6, g7, g8⟩, g9⟩
    refine good_mono (good_tokenAnswer g1 g3 g5 (by rw [g2]; exact g7)) ?_
    rintro _ _ ⟨rfl, rfl⟩
    rw [h2] at g2 g8 g9
    refine ⟨g2, _, rfl, g4, rfl, by cases cnf <;> rfl, g6, ?_, g8⟩
    intro h
    obtain ⟨rt, id, g10, g11, g12⟩ := g9 h
    simp only [g10, Option.map_some, Option.getD_some]
    exact ⟨g11, id, g11, g12.ex⟩
  refine good_clientAuth (n := 16) hp ?_
  cases hb with
  | none hd hbound =>
    unfold tokenHandler
    simp only [hr.method, ne_eq, not_true, if_false, hd, hbound, Bool.false_eq_true, and_false, if_true]
    exact good_le (key st rfl rfl rfl) (by omega)
  | key jkt hd hpr =>
    unfold tokenHandler
    simp only [hr.method, ne_eq, not_true, if_false, hd, false_and]
    refine good_bind (m := 4) (n := 12) (hr.method ▸ good_proof hpr hd hr.method) ?_
    rintro _ _ ⟨rfl, P, rfl⟩
    exact key _ rfl rfl rfl

/-- /token/introspect. -/
theorem good_introspect {r : Req} {cl : Client} {st : St} {v sub clientId scope aud : Str} {cnf : Option Cnf} {now : Nat}
    (hf : Fresh S.E st now S.issuer v sub clientId scope aud cnf) (hp : Presents S.P st r cl)
    (hcl : st.clients cl.clientId = some cl) (hi : S.issuer ≠ []) (hurl : S.E.parseRequestURI S.issuer = true)
    (hv : v ≠ []) (hr : r.formValue g!"token" = v) (h1 : seconds now + 1 ≤ seconds st.clock)
    (h2 : seconds st.clock ≤ seconds now + 3600) :
    Good S.E (fun o _ => ∃ b, o = ⟨200, .introspection (some b)⟩ ∧ b.sub = sub ∧ b.clientId = clientId ∧ b.scope = scope ∧
        b.aud = aud ∧ b.iss = S.issuer ∧ b.cnf = cnf ∧ b.tokenType = (if cnf.isSome then g!"DPoP" else g!"Bearer") ∧
        seconds now + 3600 ≤ b.exp)
      (serve S .introspect r) 5 st := by
  obtain ⟨t, md, e1, e2, e3, e4, e5, e6, e7, e8, e9, e10, e11⟩ := hf.ex
  have g1 : ¬ md.expiresAt < Device.unix st.clock := by
    have : Device.unix st.clock = seconds st.clock := rfl
    omega
  have g2 : ¬ md.notBefore > Device.unix st.clock := by
    have : Device.unix st.clock = seconds st.clock := rfl
    omega
  refine good_clientAuth (n := 3) hp ?_
  unfold introspectHandler
  simp only [TokenSvc.introspect, hi, hurl, hr, hv, if_false, not_true, Prog.call, bind_op, bind_ret, pure_eq, Good, exec,
    faulty, hcl, found, e1, Bool.false_eq_true, e2, if_true, TokenGen.isUsable, e4, g1, g2]
  intro _ _ _ _ _ _
  exact ⟨_, rfl, e6, e7, e8, e9, e5, e3, by simp [activeBody, e3], e11⟩

/-! ### What later calls leave alone -/

theorem code_left {st st' : St} {es : List Entry} {code : Str} {x : Option (CodeSession × Nat)}
    (h : Linked S.E st es st') (hl : LeavesCode S es code) (hx : st.codes (codeKey S.E S.issuer code) = x) :
    st'.codes (codeKey S.E S.issuer code) = x := by
  refine Linked.keep (codes_timeless _ _) h ?_ hx
  intro e he hp
  rcases exec_codes S.E e.cmd e.choice e.pre with h | ⟨i, n, hc, h⟩ | ⟨i, n, cs, hc, h⟩
  · rw [Entry.post, h]; exact hp
  · rw [Entry.post, h]
    simp only [upd]
    rw [if_neg (Ne.symm (hl e he i n (Or.inr hc)))]; exact hp
  · rw [Entry.post, h]
    simp only [upd]
    rw [if_neg (Ne.symm (hl e he i n (Or.inl ⟨cs, hc⟩)))]; exact hp

theorem request_left {st st' : St} {es : List Entry} {uri : Str} {x : Option (AuthzRequest × Nat)}
    (h : Linked S.E st es st') (hl : LeavesRequest S es uri) (hx : st.requests (requestKey S.E S.issuer uri) = x) :
    st'.requests (requestKey S.E S.issuer uri) = x := by
  refine Linked.keep (P := fun st => st.requests (requestKey S.E S.issuer uri) = x)
    (by rintro s s' ⟨d, rfl⟩; exact Iff.rfl) h ?_ hx
  intro e he hp
  rcases exec_requests S.E e.cmd e.choice e.pre with h | ⟨i, n, hc, h⟩ | ⟨i, n, cs, hc, h⟩
  · rw [Entry.post, h]; exact hp
  · rw [Entry.post, h]
    simp only [upd]
    rw [if_neg (Ne.symm (hl e he i n (Or.inr hc)))]; exact hp
  · rw [Entry.post, h]
    simp only [upd]
    rw [if_neg (Ne.symm (hl e he i n (Or.inl ⟨cs, hc⟩)))]; exact hp

theorem token_left {st st' : St} {es : List Entry} {v : Str} {x : Option Token}
    (h : Linked S.E st es st') (hl : LeavesToken S es v) (hx : st.tokVal (tokenKey S.E S.issuer v) = x) :
    st'.tokVal (tokenKey S.E S.issuer v) = x := by
  refine Linked.keep (P := fun st => st.tokVal (tokenKey S.E S.issuer v) = x)
    (by rintro s s' ⟨d, rfl⟩; exact Iff.rfl) h ?_ hx
  intro e he hp
  rcases exec_tokens S.E e.cmd e.choice e.pre with ⟨-, h⟩ | ⟨i, t, hc, h⟩ | ⟨i, id, t, hc, ht, h⟩
  · rw [Entry.post, h]; exact hp
  · rw [Entry.post, h]
    simp only [create, upd]
    rw [if_neg (Ne.symm ((hl e he).1 i t hc))]; exact hp
  · rw [Entry.post, h]
    simp only [Store.revoke, ht, upd]
    rw [if_neg (Ne.symm ((hl e he).2 i id t hc ht))]; exact hp

theorem Fresh.left {st st' : St} {es : List Entry} {now : Nat} {v sub clientId scope aud : Str} {cnf : Option Cnf}
    (hf : Fresh S.E st now S.issuer v sub clientId scope aud cnf) (h : Linked S.E st es st') (hl : LeavesToken S es v) :
    Fresh S.E st' now S.issuer v sub clientId scope aud cnf := by
  obtain ⟨t, md, e1, e2⟩ := hf.ex
  exact ⟨t, md, token_left h hl e1, e2⟩

/-- /par. -/
theorem good_par {r : Req} {c cl : Client} {ar : AuthzRequest} {st : St} {jkt : Str}
    (hiss : S.issuer ≠ []) (hm : r.method = g!"POST") (hp : Presents S.P st r c) (hd : r.dpop ≠ [])
    (hpr : Proves S st r jkt) (hsig : ProperlySigned S c (r.get g!"request") ar) (hu : ar.requestUri = none)
    (hown : ar.clientId = c.clientId) (hwf : WellFormed S.E ar) (hcl : st.clients ar.clientId = some cl)
    (hreg : Registered cl ar) :
    Good S.E (fun a st' => ∃ uri eff, uri ≠ [] ∧ Effective ar eff ∧ a = ⟨201, .par S.issuer uri 60⟩ ∧ st'.clock = st.clock ∧
        st'.requests = upd st.requests (requestKey S.E S.issuer uri) (some (eff, st.clock + 60 * second)))
      (serve S .par r) 9 st := by
  obtain ⟨eff, hck⟩ := Props.checkRequest_complete hwf
  obtain ⟨r', e, _, he, _⟩ := Authorization.checkRequest_ok hck
  simp at e; subst e
  have ec : eff.clientId = ar.clientId := by have := congrArg AuthzRequest.clientId he.rest; simpa using this
  rw [hown] at hcl ec
  refine good_clientAuth (n := 7) hp ?_
  unfold parHandler
  simp only [hm, ne_eq, not_true, if_false]
  refine good_bind (m := 4) (n := 3) (hm ▸ good_proof hpr hd hm) ?_
  rintro _ _ ⟨rfl, P, rfl⟩
  simp only [decode_signed hsig, Authorization.register, hiss, if_false, hu, Option.isSome_none, Bool.false_eq_true,
    Authorization.validate, hck, Prog.call, bind_op, bind_ret, pure_eq, Good, exec, faulty, ec, hcl, found,
    Props.checkClient_complete he hreg, gen, ne_eq, not_true]
  intro _ _ uri huri _ _
  exact ⟨uri, eff, huri, he, rfl, trivial, rfl⟩

end Http
end Verif
