import Verif.Proofs.Headers
import Verif.Props.Http
import Verif.Props.Url

/-! The status and the header of the answers of the example server. -/
set_option linter.unusedSimpArgs false
namespace Verif.Props
open Verif.Prog Verif.Spec Verif.Http Verif.Headers

/-! ### Statuses and bodies -/

/-- The answers to accepted requests. -/
def Accepted : Route → Http.Resp → Prop
  | .par, a => ∃ i u n, a = ⟨201, .par i u n⟩
  | .authorize, a => ∃ u t, a = ⟨302, .authorization u .queryJWT t⟩
  | .token, a => ∃ b, a = ⟨200, .tokens b⟩
  | .introspect, a => ∃ b, a = ⟨200, .introspection b⟩
  | .revoke, a => a = ⟨200, .empty⟩
  | .deviceAuthorize, a => ∃ d u v e i, a = ⟨200, .device d u v e i⟩
  | .device, a => a = ⟨200, .form⟩ ∨ a = ⟨200, .empty⟩

/-- The answers to refused requests. -/
def Refused (route : Route) (a : Http.Resp) : Prop :=
  (∃ n c, a = ⟨n, .error c⟩ ∧ n ∈ [400, 401, 405, 500]) ∨ (route = .par ∧ a = ⟨405, .empty⟩) ∨
    (route ∈ [Route.authorize, .device] ∧ a = ⟨401, .empty⟩)

theorem refused_err {route : Route} {n : Nat} {c : ErrCode} {tr : List Ev} {a : Http.Resp} (h : Exec (Http.err n c) tr (.done a))
    (hn : n ∈ [400, 401, 405, 500]) : Refused route a := by
  cases h
  exact Or.inl ⟨_, _, rfl, hn⟩

theorem refused_with {route : Route} {n : Nat} {e : Option OErr} {tr : List Ev} {a : Http.Resp}
    (h : Exec (Http.withError n e) tr (.done a)) (hn : n ∈ [400, 401, 405, 500]) : Refused route a := by
  obtain ⟨c, rfl⟩ := withError_done h
  exact Or.inl ⟨_, _, rfl, hn⟩

/-- The answers of the handlers behind the authentication of clients. -/
theorem client_handler (S : Server) (r : Http.Req) (c : Client) (tr : List Ev) (a : Http.Resp) :
    (Exec (parHandler S r (some c)) tr (.done a) → Accepted .par a ∨ Refused .par a) ∧
    (Exec (tokenHandler S r (some c)) tr (.done a) → Accepted .token a ∨ Refused .token a) ∧
    (Exec (introspectHandler S r (some c)) tr (.done a) → Accepted .introspect a ∨ Refused .introspect a) ∧
    (Exec (revokeHandler S r (some c)) tr (.done a) → Accepted .revoke a ∨ Refused .revoke a) ∧
    (Exec (deviceAuthzHandler S r) tr (.done a) → Accepted .deviceAuthorize a ∨ Refused .deviceAuthorize a) := by
  refine ⟨fun h => ?_, fun h => ?_, fun h => ?_, fun h => ?_, fun h => ?_⟩
  · unfold parHandler at h
    split at h
    · cases h; exact Or.inr (Or.inr (Or.inl ⟨rfl, rfl⟩))
    dsimp only at h
    obtain ⟨t1, t2, x, rfl, _, h⟩ := exec_bind_done h
    split at h
    · exact Or.inr (refused_err h (by simp))
    split at h
    · exact Or.inr (refused_err h (by simp))
    obtain ⟨t1, t2, x, rfl, _, h⟩ := exec_bind_done h
    split at h
    · exact Or.inr (refused_with h (by simp))
    · cases h; exact Or.inl ⟨_, _, _, rfl⟩
  · have key : ∀ d res tr, Exec (Http.tokenAnswer d res) tr (.done a) → Accepted .token a ∨ Refused .token a := by
      intro d res tr h
      unfold Http.tokenAnswer at h
      split at h
      · exact Or.inr (refused_with h (by simp))
      split at h
      · cases h
      split at h
      · cases h
      obtain ⟨t1, t2, x, rfl, _, h⟩ := exec_bind_done h
      cases h
      exact Or.inl ⟨_, rfl⟩
    unfold tokenHandler at h
    split at h
    · exact Or.inr (refused_err h (by simp))
    dsimp only at h
    split at h
    · exact Or.inr (refused_err h (by simp))
    split at h
    · obtain ⟨t1, t2, x, rfl, _, h⟩ := exec_bind_done h
      exact key _ _ _ h
    · obtain ⟨t1, t2, x, rfl, _, h⟩ := exec_bind_done h
      split at h
      · exact Or.inr (refused_err h (by simp))
      obtain ⟨t1, t2, x, rfl, _, h⟩ := exec_bind_done h
      exact key _ _ _ h
  · unfold introspectHandler at h
    dsimp only at h
    obtain ⟨t1, t2, x, rfl, _, h⟩ := exec_bind_done h
    split at h
    · exact Or.inr (refused_with h (by simp))
    split at h
    · cases h
    split at h
    · obtain ⟨t1, t2, x, rfl, _, h⟩ := exec_bind_done h
      split at h
      · split at h
        · cases h
        · cases h; exact Or.inl ⟨_, rfl⟩
      · cases h; exact Or.inl ⟨_, rfl⟩
    · cases h; exact Or.inl ⟨_, rfl⟩
  · unfold revokeHandler at h
    dsimp only at h
    obtain ⟨t1, t2, x, rfl, _, h⟩ := exec_bind_done h
    split at h
    · exact Or.inr (refused_with h (by simp))
    · cases h; exact Or.inl rfl
  · unfold deviceAuthzHandler at h
    split at h
    · exact Or.inr (refused_err h (by simp))
    obtain ⟨t1, t2, x, rfl, _, h⟩ := exec_bind_done h
    split at h
    · exact Or.inr (refused_with h (by simp))
    · cases h; exact Or.inl ⟨_, _, _, _, _, rfl⟩

/-- The answers of the handlers behind the login; not the one of the login itself. -/
theorem user_handler (S : Server) (r : Http.Req) (tr : List Ev) (a : Http.Resp) (route : Route)
    (h : Exec (Http.serve S route r) tr (.done a)) (hb : r.basic = some (g!"hello", g!"world")) (hr : route ∈ [Route.authorize, .device]) :
    Accepted route a ∨ ∃ n c, a = ⟨n, .error c⟩ ∧ n ∈ [400, 401, 405, 500] := by
  have e : ∀ {n : Nat} {c : ErrCode} {tr : List Ev} {a : Http.Resp}, Exec (Http.err n c) tr (.done a) → n ∈ [400, 401, 405, 500] →
      ∃ n c, a = ⟨n, .error c⟩ ∧ n ∈ [400, 401, 405, 500] := by
    intro n c tr a h hn
    cases h
    exact ⟨_, _, rfl, hn⟩
  have w : ∀ {n : Nat} {c : Option OErr} {tr : List Ev} {a : Http.Resp}, Exec (Http.withError n c) tr (.done a) →
      n ∈ [400, 401, 405, 500] → ∃ n c, a = ⟨n, .error c⟩ ∧ n ∈ [400, 401, 405, 500] := by
    intro n c tr a h hn
    obtain ⟨c, rfl⟩ := withError_done h
    exact ⟨_, _, rfl, hn⟩
  have hu : ∀ (k : Str → Prog Http.Resp), basicAuth r k = k g!"hello" := by
    intro k
    simp only [basicAuth, hb]
    rw [if_neg (by decide), if_neg (by decide)]
  rcases List.mem_cons.1 hr with rfl | hr
  · have h0 := h
    simp only [Http.serve, hu] at h
    unfold authorizeHandler at h
    split at h
    · exact Or.inr (e h (by simp))
    rw [if_neg (by decide)] at h
    obtain ⟨t1, t2, x, rfl, _, h⟩ := exec_bind_done h
    split at h
    · exact Or.inr (e h (by simp))
    · cases h
    split at h
    · exact Or.inr (e h (by simp))
    split at h
    · exact Or.inr (e h (by simp))
    obtain ⟨t1, t2, x, rfl, _, h⟩ := exec_bind_done h
    split at h
    · exact Or.inr (w h (by simp))
    unfold deliver at h
    split at h
    · exact Or.inr (e h (by simp))
    split at h
    · cases h
      obtain ⟨_, _, client, ar, sub, res, n, sess, a, eff, now, _, _, _, _, _, _, _, _, _, _, h1, h2, h3, _⟩ := authorization_facts h0
      cases h3
    · obtain ⟨t1, t2, x, rfl, _, h⟩ := exec_bind_done h
      split at h
      · exact Or.inr (e h (by simp))
      · cases h
        obtain ⟨_, _, client, ar, sub, res, n, sess, a, eff, now, _, _, _, _, _, _, _, _, _, _, h1, h2, h3, _⟩ := authorization_facts h0
        rw [h3]
        exact Or.inl ⟨_, _, rfl⟩
  · cases List.mem_singleton.1 hr
    simp only [Http.serve, hu] at h
    unfold deviceHandler at h
    rw [if_neg (by decide)] at h
    split at h
    · cases h; exact Or.inl (Or.inl rfl)
    split at h
    · obtain ⟨t1, t2, x, rfl, _, h⟩ := exec_bind_done h
      split at h
      · exact Or.inr (w h (by simp))
      · cases h; exact Or.inl (Or.inr rfl)
    · exact Or.inr (e h (by simp))

/-- **C96** (statuses). With a client store that answers a client or an error, an accepted request is
answered with the success status and the body of its endpoint, and any other with an error status:
no error is answered with a status of success, and no tokens with one of failure. -/
theorem C96_status (S : Server) (route : Route) (r : Http.Req) (tr : List Ev) (a : Http.Resp)
    (hnil : ∀ id, ⟨.clientsGet id, .ok none⟩ ∉ tr) (h : Exec (Http.serve S route r) tr (.done a)) :
    (Accepted route a ∧ a.status < 400) ∨ (Refused route a ∧ 400 ≤ a.status) := by
  have key : Accepted route a ∨ Refused route a := by
    have hc : ∀ k, Exec (clientAuth S r k) tr (.done a) → (∀ c tr, Exec (k (some c)) tr (.done a) → Accepted route a ∨ Refused route a) →
        Accepted route a ∨ Refused route a := by
      intro k hk hh
      rcases clientAuth_exec hk hnil with ⟨_, h2, _⟩ | ⟨c, t1, t2, rfl, _, _, h2⟩
      · obtain ⟨e, rfl⟩ := h2 a rfl
        exact Or.inr (Or.inl ⟨_, _, rfl, by simp⟩)
      · exact hh c t2 h2
    have hu : route ∈ [Route.authorize, .device] → Accepted route a ∨ Refused route a := by
      intro hr
      by_cases hb : r.basic = some (g!"hello", g!"world")
      · exact (user_handler S r tr a route h hb hr).imp id Or.inl
      · have : ∀ k, Exec (basicAuth r k) tr (.done a) → Accepted route a ∨ Refused route a := by
          intro k hk
          rcases basicAuth_exec hk with ⟨_, hk | hk⟩ | ⟨hb', _⟩
          · cases hk; exact Or.inr (Or.inr (Or.inr ⟨hr, rfl⟩))
          · cases hk
          · exact absurd hb' hb
        cases route with
        | authorize => exact this _ h
        | device => exact this _ h
        | _ => simp at hr
    cases route with
    | par => exact hc _ h fun c tr => (client_handler S r c tr a).1
    | token => exact hc _ h fun c tr => (client_handler S r c tr a).2.1
    | introspect => exact hc _ h fun c tr => (client_handler S r c tr a).2.2.1
    | revoke => exact hc _ h fun c tr => (client_handler S r c tr a).2.2.2.1
    | deviceAuthorize => exact hc _ h fun c tr => (client_handler S r c tr a).2.2.2.2
    | authorize => exact hu (by simp)
    | device => exact hu (by simp)
  rcases key with k | k
  · refine Or.inl ⟨k, ?_⟩
    cases route <;> simp only [Accepted] at k
    · obtain ⟨_, _, _, rfl⟩ := k; simp
    · obtain ⟨_, _, rfl⟩ := k; simp
    · obtain ⟨_, rfl⟩ := k; simp
    · obtain ⟨_, rfl⟩ := k; simp
    · subst k; simp
    · obtain ⟨_, _, _, _, _, rfl⟩ := k; simp
    · rcases k with rfl | rfl <;> simp
  · refine Or.inr ⟨k, ?_⟩
    rcases k with ⟨n, c, rfl, hn⟩ | ⟨_, rfl⟩ | ⟨_, rfl⟩
    · simp only [List.mem_cons, List.not_mem_nil, or_false] at hn
      show 400 ≤ n
      omega
    · simp
    · simp

/-! ### Headers -/

/-- The header of an answer. -/
theorem serveH_done {S : Server} {host nonce : Str} {route : Route} {r : Http.Req} {tr : List Ev} {y : Reply}
    (h : Exec (serveH S host nonce route r) tr (.done y)) : Exec (Http.serve S route r) tr (.done y.resp) ∧
      ((route ∉ [Route.authorize, .device] ∧ y.header = written (ctx host nonce r) y.resp []) ∨
       (route ∈ [Route.authorize, .device] ∧ r.basic ≠ some (g!"hello", g!"world") ∧ y.resp = ⟨401, .empty⟩ ∧
          y.header = Headers.set [] g!"WWW-Authenticate" g!"Basic realm=Restricted") ∨
       (route ∈ [Route.authorize, .device] ∧ r.basic = some (g!"hello", g!"world") ∧
          y.header = written (ctx host nonce r) y.resp (secure []))) := by
  have key : ∀ (k : Str → Prog Http.Resp),
      Exec (basicAuthH r [] fun sub h => write (ctx host nonce r) (secure h) (k sub)) tr (.done y) →
      Exec (basicAuth r k) tr (.done y.resp) ∧
       ((r.basic ≠ some (g!"hello", g!"world") ∧ y.resp = ⟨401, .empty⟩ ∧
          y.header = Headers.set [] g!"WWW-Authenticate" g!"Basic realm=Restricted") ∨
        (r.basic = some (g!"hello", g!"world") ∧ y.header = written (ctx host nonce r) y.resp (secure []))) := by
    intro k h
    unfold basicAuthH at h
    unfold basicAuth
    cases hb : r.basic with
    | none =>
      rw [hb] at h
      cases h
      exact ⟨.ret _, Or.inl ⟨by simp, rfl, rfl⟩⟩
    | some x =>
      obtain ⟨u, p⟩ := x
      rw [hb] at h
      dsimp only at h ⊢
      split at h
      · rename_i c
        cases h
        rw [if_pos c]
        refine ⟨.ret _, Or.inl ⟨fun e => ?_, rfl, rfl⟩⟩
        cases e
        exact absurd c (by decide)
      · rename_i c
        rw [if_neg c]
        split at h
        · rename_i c
          cases h
          rw [if_pos c]
          refine ⟨.ret _, Or.inl ⟨fun e => ?_, rfl, rfl⟩⟩
          cases e
          exact absurd c (by decide)
        · rename_i c'
          rw [if_neg c']
          obtain ⟨h1, h2⟩ := write_done.1 h
          have : u = g!"hello" ∧ p = g!"world" := by simpa using c'
          obtain ⟨rfl, rfl⟩ := this
          exact ⟨h1, Or.inr ⟨rfl, h2⟩⟩
  cases route with
  | authorize =>
    obtain ⟨h1, h2⟩ := key _ h
    exact ⟨h1, Or.inr (h2.imp (fun h => ⟨by simp, h⟩) fun h => ⟨by simp, h⟩)⟩
  | device =>
    obtain ⟨h1, h2⟩ := key _ h
    exact ⟨h1, Or.inr (h2.imp (fun h => ⟨by simp, h⟩) fun h => ⟨by simp, h⟩)⟩
  | _ =>
    obtain ⟨h1, h2⟩ := write_done.1 h
    exact ⟨h1, Or.inl ⟨by simp, h2⟩⟩

/-- **C96** (refinement). The server with headers gives the same answers as the one without. -/
theorem C96_refines (S : Server) (host nonce : Str) (route : Route) (r : Http.Req) (tr : List Ev) (a : Http.Resp) :
    (∃ h, Exec (serveH S host nonce route r) tr (.done ⟨h, a⟩)) ↔ Exec (Http.serve S route r) tr (.done a) := by
  constructor
  · rintro ⟨h, hx⟩
    exact (serveH_done hx).1
  · intro hx
    have key : ∀ (k : Str → Prog Http.Resp), Exec (basicAuth r k) tr (.done a) →
        ∃ h, Exec (basicAuthH r [] fun sub h => write (ctx host nonce r) (secure h) (k sub)) tr (.done ⟨h, a⟩) := by
      intro k hk
      unfold basicAuth at hk
      unfold basicAuthH
      cases hb : r.basic with
      | none =>
        rw [hb] at hk
        cases hk
        exact ⟨_, .ret _⟩
      | some x =>
        obtain ⟨u, p⟩ := x
        rw [hb] at hk
        dsimp only at hk ⊢
        split at hk
        · rename_i c
          rw [if_pos c]
          cases hk
          exact ⟨_, .ret _⟩
        · rename_i c
          rw [if_neg c]
          split at hk
          · rename_i c
            rw [if_pos c]
            cases hk
            exact ⟨_, .ret _⟩
          · rename_i c
            rw [if_neg c]
            exact ⟨written (ctx host nonce r) a (secure []), write_done.2 ⟨hk, rfl⟩⟩
    cases route with
    | authorize => exact key _ hx
    | device => exact key _ hx
    | _ => exact ⟨written (ctx host nonce r) a [], write_done.2 ⟨hx, rfl⟩⟩

/-- The answers with their headers: the one of the login, or one written by a handler on a
header that is empty or has the security headers. -/
theorem reply_cases {S : Server} {host nonce : Str} {route : Route} {r : Http.Req} {tr : List Ev} {y : Reply}
    (hnil : ∀ id, ⟨.clientsGet id, .ok none⟩ ∉ tr) (h : Exec (serveH S host nonce route r) tr (.done y)) :
    (y = ⟨Headers.set [] g!"WWW-Authenticate" g!"Basic realm=Restricted", ⟨401, .empty⟩⟩) ∨
    ((Accepted route y.resp ∨ (∃ n c, y.resp = ⟨n, .error c⟩ ∧ n ∈ [400, 401, 405, 500]) ∨ (route = .par ∧ y.resp = ⟨405, .empty⟩)) ∧
      ((route ∉ [Route.authorize, .device] ∧ y.header = written (ctx host nonce r) y.resp []) ∨
       (route ∈ [Route.authorize, .device] ∧ y.header = written (ctx host nonce r) y.resp (secure [])))) := by
  obtain ⟨h1, h2⟩ := serveH_done h
  obtain ⟨hd, a⟩ := y
  dsimp only at h1 h2 ⊢
  rcases h2 with ⟨k1, k2⟩ | ⟨k1, k2, rfl, rfl⟩ | ⟨k1, k2, k3⟩
  · right
    refine ⟨?_, Or.inl ⟨k1, k2⟩⟩
    rcases C96_status S route r tr a hnil h1 with ⟨k, _⟩ | ⟨k | k | ⟨k, _⟩, _⟩
    · exact Or.inl k
    · exact Or.inr (Or.inl k)
    · exact Or.inr (Or.inr k)
    · exact absurd k k1
  · exact Or.inl rfl
  · exact Or.inr ⟨(user_handler S r tr a route h1 k2 k1).imp id Or.inl, Or.inr ⟨k1, k3⟩⟩

/-- The fields that `WithError` sets. -/
theorem error_fields (x : Ctx) (n : Nat) (c : ErrCode) (h : Header) (hn : n ∈ [400, 401, 405, 500]) :
    Headers.get (written x ⟨n, .error c⟩ h) g!"Content-Type" = some json ∧
    Headers.get (written x ⟨n, .error c⟩ h) g!"WWW-Authenticate" =
      some (g!"Bearer realm=" ++ quote x.host ++ g!", error=" ++ quote (Discovery.codeText c) ++
        g!", error_description=" ++ quote (Discovery.description c)) := by
  have hn : n ≠ 200 := by
    simp only [List.mem_cons, List.not_mem_nil, or_false] at hn
    omega
  simp only [written, if_neg hn, withErrorH]
  refine ⟨?_, get_set_same _ _ rfl⟩
  rw [get_set_other _ _ (by decide)]
  exact get_set_same _ _ rfl

/-- **C96** (challenges). Every answer with status 401 says how to authenticate (RFC 9110 section 11.6.1):
the login asks for basic authentication, everything else names the error of its body in a bearer
challenge. -/
theorem C96_challenge (S : Server) (host nonce : Str) (route : Route) (r : Http.Req) (tr : List Ev) (y : Reply)
    (hnil : ∀ id, ⟨.clientsGet id, .ok none⟩ ∉ tr) (h : Exec (serveH S host nonce route r) tr (.done y)) (hs : y.resp.status = 401) :
    Headers.get y.header g!"WWW-Authenticate" = some g!"Basic realm=Restricted" ∨
    ∃ c rest, y.resp.body = .error c ∧ Headers.get y.header g!"WWW-Authenticate" =
      some (g!"Bearer realm=" ++ quote host ++ g!", error=\"" ++ Discovery.codeText c ++ g!"\"" ++ rest) := by
  have hq : ∀ c, quote (Discovery.codeText c) = g!"\"" ++ Discovery.codeText c ++ g!"\"" := by
    intro c
    cases c <;> decide +kernel
  rcases reply_cases hnil h with rfl | ⟨k, k'⟩
  · exact Or.inl (get_set_same _ _ rfl)
  right
  obtain ⟨hd, a⟩ := y
  dsimp only at hs k k' ⊢
  have hx : ∃ h0, hd = written (ctx host nonce r) a h0 := k'.elim (fun k => ⟨_, k.2⟩) fun k => ⟨_, k.2⟩
  obtain ⟨h0, rfl⟩ := hx
  rcases k with k | ⟨n, c, rfl, hn⟩ | ⟨_, rfl⟩
  · cases route <;> simp only [Accepted] at k
    · obtain ⟨_, _, _, rfl⟩ := k; simp at hs
    · obtain ⟨_, _, rfl⟩ := k; simp at hs
    · obtain ⟨_, rfl⟩ := k; simp at hs
    · obtain ⟨_, rfl⟩ := k; simp at hs
    · subst k; simp at hs
    · obtain ⟨_, _, _, _, _, rfl⟩ := k; simp at hs
    · rcases k with rfl | rfl <;> simp at hs
  · refine ⟨c, g!", error_description=" ++ quote (Discovery.description c), rfl, ?_⟩
    rw [(error_fields (ctx host nonce r) n c h0 hn).2, hq]
    simp [ctx]
  · simp at hs

/-- **C96** (JSON). Everything that clients parse, errors included, is declared as JSON (RFC 6749
sections 5.1 and 5.2, RFC 7662 section 2.2, RFC 8628 section 3.2, RFC 9126 section 2.2). -/
theorem C96_json (S : Server) (host nonce : Str) (route : Route) (r : Http.Req) (tr : List Ev) (y : Reply)
    (hnil : ∀ id, ⟨.clientsGet id, .ok none⟩ ∉ tr) (h : Exec (serveH S host nonce route r) tr (.done y))
    (hb : y.resp.body ≠ .empty) (hf : y.resp.body ≠ .form) (ha : ∀ u d t, y.resp.body ≠ .authorization u d t) :
    Headers.get y.header g!"Content-Type" = some g!"application/json; charset=utf-8" := by
  rcases reply_cases hnil h with rfl | ⟨k, k'⟩
  · simp at hb
  obtain ⟨hd, a⟩ := y
  dsimp only at k k' hb hf ha ⊢
  have hx : ∃ h0, hd = written (ctx host nonce r) a h0 := k'.elim (fun k => ⟨_, k.2⟩) fun k => ⟨_, k.2⟩
  obtain ⟨h0, rfl⟩ := hx
  rcases k with k | ⟨n, c, rfl, hn⟩ | ⟨_, rfl⟩
  · cases route <;> simp only [Accepted] at k
    · obtain ⟨_, _, _, rfl⟩ := k; exact get_set_same _ _ rfl
    · obtain ⟨u, t, rfl⟩ := k; exact absurd rfl (ha u _ t)
    · obtain ⟨_, rfl⟩ := k; exact get_set_same _ _ rfl
    · obtain ⟨_, rfl⟩ := k; exact get_set_same _ _ rfl
    · subst k; simp at hb
    · obtain ⟨_, _, _, _, _, rfl⟩ := k; exact get_set_same _ _ rfl
    · rcases k with rfl | rfl
      · simp at hf
      · simp at hb
  · exact (error_fields _ n c h0 hn).1
  · simp at hb

/-- The security headers of the pages for users. -/
def pageHeaders : List (Str × Str) :=
  [(g!"X-Frame-Options", g!"DENY"), (g!"X-Content-Type-Options", g!"nosniff"), (g!"Content-Security-Policy", g!"default-src 'none'"),
   (g!"Referrer-Policy", g!"no-referrer"), (g!"Cache-Control", g!"private, no-cache, must-revalidate"),
   (g!"X-XSS-Protection", g!"1; mode=block"), (g!"X-Robots-Tag", g!"noarchive")]

/-- **C96** (pages). Everything that `/authorize` and `/device` answer to the logged-in user cannot be
framed, sniffed, or stored by shared caches, loads nothing and leaks no referrer. -/
theorem C96_page (S : Server) (host nonce : Str) (route : Route) (r : Http.Req) (tr : List Ev) (y : Reply)
    (h : Exec (serveH S host nonce route r) tr (.done y))
    (hr : route ∈ [Route.authorize, .device]) (hb : r.basic = some (g!"hello", g!"world")) (x : Str × Str) (hx : x ∈ pageHeaders) :
    Headers.get y.header x.1 = some x.2 := by
  obtain ⟨h1, h2⟩ := serveH_done h
  rcases h2 with ⟨k, _⟩ | ⟨_, k, _⟩ | ⟨_, _, hh⟩
  · exact absurd hr k
  · exact absurd hb k
  rw [hh]
  have hs : ∀ x ∈ pageHeaders, Headers.get (secure []) x.1 = some x.2 := by decide +kernel
  have hne : ∀ x ∈ pageHeaders, canon g!"Content-Type" ≠ canon x.1 ∧ canon g!"WWW-Authenticate" ≠ canon x.1 ∧
      canon g!"Location" ≠ canon x.1 := by decide +kernel
  obtain ⟨n1, n2, n3⟩ := hne x hx
  obtain ⟨hd, a⟩ := y
  dsimp only at h1 hh ⊢
  rcases user_handler S r tr a route h1 hb hr with k | ⟨n, c, rfl, hn⟩
  · rcases List.mem_cons.1 hr with rfl | hr
    · obtain ⟨u, t, rfl⟩ := k
      simp only [written, authorizationH, redirectH]
      split
      · rw [get_set_other _ _ n1, get_set_other _ _ n3]; exact hs x hx
      · rw [get_set_other _ _ n3]; exact hs x hx
    · cases List.mem_singleton.1 hr
      rcases k with rfl | rfl
      · exact hs x hx
      · simp only [written]
        exact hs x hx
  · simp only [written]
    split
    · exact hs x hx
    · rw [withErrorH, get_set_other _ _ n2, get_set_other _ _ n1]
      exact hs x hx

/-- **C96** (redirections). Only `/authorize` redirects, and only with an authorization. With `net/url` as it is, the
browser is sent to the redirect URI of the request that the code stands for; when it is an absolute URI with an authority,
this is the scheme, the authority and the path of that URI, up to percent-encoding and the case of the scheme, and the client
called there reads the signed response in the query. -/
theorem C96_location (S : Server) (hp : ∀ s, S.E.parseRequestURI s = (Url.parseRequestURI s).isSome)
    (host nonce : Str) (route : Route) (r : Http.Req) (tr : List Ev) (y : Reply)
    (hnil : ∀ id, ⟨.clientsGet id, .ok none⟩ ∉ tr) (h : Exec (serveH S host nonce route r) tr (.done y)) (loc : Str)
    (hl : Headers.get y.header g!"Location" = some loc) :
    route = .authorize ∧ ∃ u t code sess n eff cl reg now, y.resp = ⟨302, .authorization u .queryJWT t⟩ ∧
      ⟨.csReg S.issuer code sess, .ok n⟩ ∈ tr ∧ sess.request = some eff ∧ u = eff.redirectUri ∧
      ⟨.clientsGet eff.clientId, .ok (some cl)⟩ ∈ tr ∧ reg ∈ cl.redirectUris ∧ SameFold u reg ∧
      ⟨.now, now⟩ ∈ tr ∧
      S.jarmSer { iss := S.issuer, aud := eff.clientId, exp := now / 1000000000 + n, code := code, state := eff.state } = some t ∧
      (∀ c, IsUri u c → c.authority ≠ [] ∨ c.path ≠ [] →
        ∃ c' q, IsUri loc c' ∧ c'.scheme = c.scheme.map asciiLower ∧ pct c'.authority = pct c.authority ∧
          pct c'.path = pct c.path ∧ c'.query = some q ∧
          Url.first (Url.parseQuery q) g!"response" = some t) := by
  have hn : Headers.get (secure []) g!"Location" = none := by decide +kernel
  have hauth : route = .authorize ∧ ∃ u t, y.resp = ⟨302, .authorization u .queryJWT t⟩ ∧
      y.header = written (ctx host nonce r) y.resp (secure []) := by
    rcases reply_cases hnil h with rfl | ⟨k, k'⟩
    · cases hl
    obtain ⟨hd, a⟩ := y
    dsimp only at k k' hl ⊢
    have hx : ∃ h0, hd = written (ctx host nonce r) a h0 ∧ Headers.get h0 g!"Location" = none :=
      k'.elim (fun k => ⟨_, k.2, rfl⟩) fun k => ⟨_, k.2, hn⟩
    obtain ⟨h0, e0, hh0⟩ := hx
    have hj : canon g!"Content-Type" ≠ canon g!"Location" ∧ canon g!"WWW-Authenticate" ≠ canon g!"Location" ∧
        canon g!"X-Content-Type-Options" ≠ canon g!"Location" := by decide +kernel
    rcases k with k | ⟨n, c, rfl, hn⟩ | ⟨_, rfl⟩
    · cases route <;> simp only [Accepted] at k
      · obtain ⟨_, _, _, rfl⟩ := k
        simp [e0, written, withJSONH, get_set_other _ _ hj.1, hh0] at hl
      · obtain ⟨u, t, rfl⟩ := k
        refine ⟨rfl, u, t, rfl, ?_⟩
        rcases k' with ⟨k', _⟩ | ⟨_, k'⟩
        · simp at k'
        · exact k'
      · obtain ⟨_, rfl⟩ := k
        simp [e0, written, withJSONH, get_set_other _ _ hj.1, hh0] at hl
      · obtain ⟨_, rfl⟩ := k
        simp [e0, written, withJSONH, get_set_other _ _ hj.1, hh0] at hl
      · subst k
        simp [e0, written, hh0] at hl
      · obtain ⟨_, _, _, _, _, rfl⟩ := k
        simp [e0, written, withJSONH, get_set_other _ _ hj.1, hh0] at hl
      · rcases k with rfl | rfl <;> simp [e0, written, hh0] at hl
    · simp only [e0, written] at hl
      split at hl
      · simp [hh0] at hl
      · simp [withErrorH, get_set_other _ _ hj.1, get_set_other _ _ hj.2.1, hh0] at hl
    · simp [e0, written, get_set_other _ _ hj.1, get_set_other _ _ hj.2.2, hh0] at hl
  obtain ⟨rfl, u, t, hresp, hhead⟩ := hauth
  obtain ⟨h1, -⟩ := serveH_done h
  rw [hresp] at h1 hhead
  obtain ⟨_, _, client, ar, sub, res, n, sess, a, eff, now, k1, k2, k3, k4, k5, k6, k7, k8, k9, k10, k11, hu, _, hser, huri, cl, reg, c1, c2, c3⟩ :=
    authorization_facts h1
  have e1 := congrArg AuthzRequest.redirectUri k7.rest
  have e2 := congrArg AuthzRequest.clientId k7.rest
  have e3 := congrArg AuthzRequest.state k7.rest
  dsimp only at e1 e2 e3
  have hloc : Url.location g!"/" u [(g!"response", t)] = some loc := by
    rw [hp] at huri
    obtain ⟨pu, hpu⟩ := Option.isSome_iff_exists.1 huri
    have hsome : ∃ l, Url.location g!"/" u [(g!"response", t)] = some l := by
      rw [Url.location, hpu]; exact ⟨_, rfl⟩
    obtain ⟨l, hl'⟩ := hsome
    rw [hl']
    rw [hhead] at hl
    simp only [written, authorizationH, redirectH, hl', Option.getD_some] at hl
    split at hl
    · rw [get_set_other _ _ (by decide), get_set_same _ _ rfl] at hl
      exact hl
    · rw [get_set_same _ _ rfl] at hl
      exact hl
  refine ⟨rfl, u, t, res.code, sess, n, eff, cl, reg, now, hresp, k4, k6, by rw [hu, e1], by rw [e2]; exact c1, c2, c3, k9, ?_, ?_⟩
  · rw [e2, e3]
    have : Device.unix (now + n * 1000000000) = now / 1000000000 + n := seconds_add now n
    rw [← this]
    exact hser
  · intro c hc hne
    obtain ⟨c', d1, d2, d3, -, d5, d6⟩ := C94_target_partial _ u loc _ c hc hne (by simp) hloc
    refine ⟨c', _, d1, d2, d3, d5, d6, ?_⟩
    rw [Url.first_parse_encode]
    rfl

/-- **C96** (one line). No header of any answer has a control character, whatever the host that the request names and the
parameters of the request: nothing that a request holds ends a header line. -/
theorem C96_one_line (S : Server) (host nonce : Str) (route : Route) (r : Http.Req) (tr : List Ev) (y : Reply)
    (hnil : ∀ id, ⟨.clientsGet id, .ok none⟩ ∉ tr) (h : Exec (serveH S host nonce route r) tr (.done y)) :
    (∀ x ∈ y.header, (∀ b ∈ x.1, 32 ≤ b ∧ b < 127) ∧ ∀ b ∈ x.2, 32 ≤ b ∧ b < 127) ∧ (y.header.map Prod.fst).Nodup := by
  suffices H : Lines y.header ∧ Proper y.header from ⟨H.1, H.2.2⟩
  rcases reply_cases hnil h with rfl | ⟨k, k'⟩
  · exact ⟨lines_set (by intro x hx; cases hx) (by decide +kernel) (by decide +kernel), proper_set proper_nil _ _⟩
  obtain ⟨hd, a⟩ := y
  dsimp only at k k' ⊢
  have hsec : Lines (secure []) ∧ Proper (secure []) := by
    refine ⟨?_, ?_⟩
    · have : ∀ x ∈ secure [], Line x.1 ∧ Line x.2 := by decide +kernel
      exact this
    · simp only [secure, List.foldl_cons, List.foldl_nil]
      repeat' apply proper_set
      exact proper_nil
  have hx : ∃ h0, hd = written (ctx host nonce r) a h0 ∧ Lines h0 ∧ Proper h0 :=
    k'.elim (fun k => ⟨_, k.2, (by intro x hx; cases hx), proper_nil⟩) fun k => ⟨_, k.2, hsec⟩
  obtain ⟨h0, rfl, hl, hp⟩ := hx
  have hjs : Lines (withJSONH h0) ∧ Proper (withJSONH h0) :=
    ⟨lines_set hl (by decide +kernel) (by decide +kernel), proper_set hp _ _⟩
  rcases k with k | ⟨n, c, rfl, hn⟩ | ⟨_, rfl⟩
  · cases route <;> simp only [Accepted] at k
    · obtain ⟨_, _, _, rfl⟩ := k; exact hjs
    · obtain ⟨u, t, rfl⟩ := k
      have hloc : Line ((Url.location g!"/" u [(g!"response", t)]).getD []) := by
        cases hl : Url.location g!"/" u [(g!"response", t)] with
        | none => intro b hb; cases hb
        | some l => exact C94_one_line _ u l _ (by decide) hl
      simp only [written, authorizationH, redirectH]
      have hL := lines_set (k := g!"Location") hl (by decide +kernel) hloc
      split
      · exact ⟨lines_set hL (by decide +kernel) (by decide +kernel), proper_set (proper_set hp _ _) _ _⟩
      · exact ⟨hL, proper_set hp _ _⟩
    · obtain ⟨_, rfl⟩ := k; exact hjs
    · obtain ⟨_, rfl⟩ := k; exact hjs
    · subst k; exact ⟨hl, hp⟩
    · obtain ⟨_, _, _, _, _, rfl⟩ := k; exact hjs
    · rcases k with rfl | rfl <;> exact ⟨hl, hp⟩
  · simp only [written]
    split
    · exact ⟨hl, hp⟩
    · refine ⟨lines_set hjs.1 (by decide +kernel) ?_, proper_set hjs.2 _ _⟩
      exact line_append (line_append (line_append (line_append (line_append (by decide +kernel) (line_quote _)) (by decide +kernel))
        (line_quote _)) (by decide +kernel)) (line_quote _)
  · exact ⟨lines_set (lines_set hl (by decide +kernel) (by decide +kernel)) (by decide +kernel) (by decide +kernel),
      proper_set (proper_set hp _ _) _ _⟩

/-- **C96_cache_violated.** No answer with tokens, with the metadata of a token, with device and user codes or with a request
URI forbids caches to store it, though RFC 6749 section 5.1 asks for `Cache-Control: no-store` and `Pragma: no-cache`. -/
theorem C96_cache_violated (S : Server) (host nonce : Str) (route : Route) (r : Http.Req) (tr : List Ev) (y : Reply)
    (hnil : ∀ id, ⟨.clientsGet id, .ok none⟩ ∉ tr) (h : Exec (serveH S host nonce route r) tr (.done y))
    (hr : route ∉ [Route.authorize, .device]) :
    Headers.get y.header g!"Cache-Control" = none ∧ Headers.get y.header g!"Pragma" = none := by
  rcases reply_cases hnil h with rfl | ⟨k, k'⟩
  · exact ⟨by decide +kernel, by decide +kernel⟩
  obtain ⟨hd, a⟩ := y
  dsimp only at k k' ⊢
  obtain rfl : hd = written (ctx host nonce r) a [] := k'.elim (·.2) fun k => absurd k.1 hr
  suffices H : ∀ f ∈ [g!"Cache-Control", g!"Pragma"], Headers.get (written (ctx host nonce r) a []) f = none from
    ⟨H _ (by simp), H _ (by simp)⟩
  have hj : ∀ k ∈ [g!"Cache-Control", g!"Pragma"], canon g!"Content-Type" ≠ canon k ∧ canon g!"WWW-Authenticate" ≠ canon k ∧
        canon g!"X-Content-Type-Options" ≠ canon k := by decide +kernel
  intro f hf
  obtain ⟨n1, n2, n3⟩ := hj f hf
  have hjs : Headers.get (withJSONH []) f = none := by
    rw [withJSONH, get_set_other _ _ n1]; rfl
  rcases k with k | ⟨n, c, rfl, hn⟩ | ⟨_, rfl⟩
  · cases route <;> simp only [Accepted] at k
    · obtain ⟨_, _, _, rfl⟩ := k; exact hjs
    · simp at hr
    · obtain ⟨_, rfl⟩ := k; exact hjs
    · obtain ⟨_, rfl⟩ := k; exact hjs
    · subst k; rfl
    · obtain ⟨_, _, _, _, _, rfl⟩ := k; exact hjs
    · simp at hr
  · simp only [written]
    split
    · rfl
    · rw [withErrorH, get_set_other _ _ n2, get_set_other _ _ n1]; rfl
  · show Headers.get (Headers.set (Headers.set [] _ _) _ _) f = none
    rw [get_set_other _ _ n3, get_set_other _ _ n1]; rfl

/-- **C96_login_violated.** The refusal of the login, which browsers render too, has none of the security headers: the
adapters run in the opposite order of the one they are listed in. -/
theorem C96_login_violated (S : Server) (host nonce : Str) (route : Route) (r : Http.Req) (hr : route ∈ [Route.authorize, .device])
    (hb : r.basic ≠ some (g!"hello", g!"world")) :
    ∃ y, Exec (serveH S host nonce route r) [] (.done y) ∧ y.resp = ⟨401, .empty⟩ ∧
      ∀ x ∈ pageHeaders, Headers.get y.header x.1 = none := by
  have key : ∀ k, Exec (basicAuthH r [] k) [] (.done ⟨Headers.set [] g!"WWW-Authenticate" g!"Basic realm=Restricted", ⟨401, .empty⟩⟩) := by
    intro k
    unfold basicAuthH
    split
    · exact .ret _
    · rename_i u p e
      split
      · exact .ret _
      · split
        · exact .ret _
        · rename_i c
          have : u = g!"hello" ∧ p = g!"world" := by simpa using c
          obtain ⟨rfl, rfl⟩ := this
          exact absurd e hb
  refine ⟨⟨Headers.set [] g!"WWW-Authenticate" g!"Basic realm=Restricted", ⟨401, .empty⟩⟩, ?_, rfl, by decide +kernel⟩
  cases route with
  | authorize => exact key fun sub h => write (ctx host nonce r) (secure h) (authorizeHandler S r sub)
  | device => exact key fun sub h => write (ctx host nonce r) (secure h) (deviceHandler S r sub)
  | _ => simp at hr

/-! ### The hypotheses are met -/

/-- The example server with the exact URL parser. -/
def exactServer : Server :=
  { Demo.server with E := { Demo.env with parseRequestURI := fun s => (Url.parseRequestURI s).isSome } }

/-- The run of an example, with what it says of the reply. -/
theorem headers_ex (route : Route) (r : Http.Req) (P : Reply → Prop) [DecidablePred P]
    (h : ((serveH exactServer g!"evil\r\nX: y" g!"n" route r).oracle Demo.httpAnswers).2.get?.any (fun a => decide (P a)) = true) :
    ∃ tr y, Exec (serveH exactServer g!"evil\r\nX: y" g!"n" route r) tr (.done y) ∧
      (∀ id, ⟨.clientsGet id, .ok none⟩ ∉ tr) ∧ P y := by
  cases hg : ((serveH exactServer g!"evil\r\nX: y" g!"n" route r).oracle Demo.httpAnswers).2.get? with
  | none => rw [hg] at h; simp at h
  | some a =>
    rw [hg] at h
    exact ⟨_, a, Prog.oracle_done _ _ a hg, not_nil_of_contract (oracle_all _ Demo.httpAnswers_contract _), by simpa using h⟩

/-- The user is sent to the client. -/
example : ∃ tr y, Exec (serveH exactServer g!"evil\r\nX: y" g!"n" .authorize (Demo.httpAuthorize g!"ro")) tr (.done y) ∧
    (∀ id, ⟨.clientsGet id, .ok none⟩ ∉ tr) ∧
    Headers.get y.header g!"Location" = some g!"https://app/cb?response=signed%3Ac0de" ∧
    Headers.get y.header g!"content-type" = some g!"text/html; charset=utf-8" :=
  headers_ex _ _ _ (by decide +kernel)

/-- Tokens are answered as JSON that may be cached. -/
example : ∃ tr y, Exec (serveH exactServer g!"evil\r\nX: y" g!"n" .token Demo.httpCode) tr (.done y) ∧
    (∀ id, ⟨.clientsGet id, .ok none⟩ ∉ tr) ∧ y.resp.status = 200 ∧ y.resp.body ≠ .empty ∧
    y.header = [(g!"Content-Type", json)] :=
  headers_ex _ _ _ (by decide +kernel)

/-- A client that does not authenticate gets a challenge. -/
example : ∃ tr y, Exec (serveH exactServer g!"evil\r\nX: y" g!"n" .token { method := g!"POST" }) tr (.done y) ∧
    (∀ id, ⟨.clientsGet id, .ok none⟩ ∉ tr) ∧ y.resp.status = 401 ∧ (Headers.get y.header g!"WWW-Authenticate").map (·.take 44) =
      some g!"Bearer realm=\"evil\\r\\nX: y\", error=\"invalid_" :=
  headers_ex _ _ _ (by decide +kernel)

/-- The form of the device page. -/
example : ∃ tr y, Exec (serveH exactServer g!"evil\r\nX: y" g!"n" .device { method := g!"GET", basic := some (g!"hello", g!"world") }) tr (.done y) ∧
    (∀ id, ⟨.clientsGet id, .ok none⟩ ∉ tr) ∧ y.resp = ⟨200, .form⟩ ∧ y.header.length = 7 :=
  headers_ex _ _ _ (by decide +kernel)

example : exactServer.E.parseRequestURI = fun s => (Url.parseRequestURI s).isSome := rfl

end Verif.Props
