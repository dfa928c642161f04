import Verif.Proofs.HttpRefines
import Verif.Proofs.Handle
import Verif.Proofs.Codes
import Verif.Proofs.Tokens

/-! From histories of the services to histories of the HTTP server. -/
namespace Verif.Http
open Verif.Prog Verif.Spec

variable {S : Server}

theorem sublist_pos {α : Type} {l1 l2 : List α} (h : l1.Sublist l2) :
    ∃ φ : Nat → Nat, (∀ n m, n < m → φ n < φ m) ∧ ∀ (n : Nat) (x : α), l1[n]? = some x → l2[φ n]? = some x := by
  induction h with
  | slnil => exact ⟨id, fun _ _ h => h, fun _ _ h => h⟩
  | cons a _ ih =>
    obtain ⟨φ, h1, h2⟩ := ih
    exact ⟨fun n => φ n + 1, fun n m h => Nat.succ_lt_succ (h1 n m h), fun n x h => by simpa using h2 n x h⟩
  | cons_cons a _ ih =>
    obtain ⟨φ, h1, h2⟩ := ih
    refine ⟨fun n => match n with | 0 => 0 | n + 1 => φ n + 1, fun n m h => ?_, fun n x h => ?_⟩
    · cases m with
      | zero => omega
      | succ m =>
        cases n with
        | zero => exact Nat.succ_pos _
        | succ n => exact Nat.succ_lt_succ (h1 n m (by omega))
    · cases n with
      | zero => simpa using h
      | succ n => simpa using h2 n x (by simpa using h)

/-- Positions in the service log, as positions in the server log. -/
theorem _root_.Verif.Spec.Refines.pos {own : Nat → Nat} {c : Conf} {d : Verif.Conf} (h : Refines S own c d) :
    ∃ φ : Nat → Nat, (∀ n m, n < m → φ n < φ m) ∧
      ∀ (n : Nat) (e : Entry), d.log[n]? = some e → c.log[φ n]? = some (relabel own e) := by
  obtain ⟨φ, h1, h2⟩ := sublist_pos h.sub
  exact ⟨φ, h1, fun n e he => h2 n _ (by simp [he])⟩

theorem _root_.Verif.Spec.Refines.mem {own : Nat → Nat} {c : Conf} {d : Verif.Conf} (h : Refines S own c d) {e : Entry} (he : e ∈ d.log) :
    relabel own e ∈ c.log := h.sub.mem (List.mem_map_of_mem he)

theorem _root_.Verif.Spec.Refines.calls {own : Nat → Nat} {c : Conf} {d : Verif.Conf} (h : Refines S own c d) {j : Nat} {ev : Ev}
    (he : ev ∈ callsOf S.E j d.log) : ev ∈ callsOf S.E (own j) c.log := by
  obtain ⟨n, e, h1, h2, rfl⟩ := mem_callsOf_iff.1 he
  exact mem_callsOf (e := relabel own e) (h.mem (List.mem_of_getElem? h1)) (by simp [relabel, h2])

theorem _root_.Verif.Spec.Refines.noKeyClash {own : Nat → Nat} {c : Conf} {d : Verif.Conf} (h : Refines S own c d)
    (hK : NoKeyClash S.E (logOf c)) : NoKeyClash S.E d :=
  fun _ he _ he' k i n i' n' h1 h2 hk => hK _ (h.mem he) _ (h.mem he') k i n i' n' h1 h2 hk

theorem _root_.Verif.Spec.Refines.fresh {own : Nat → Nat} {c : Conf} {d : Verif.Conf} (h : Refines S own c d)
    (hF : FreshTokens (logOf c)) : FreshTokens d := by
  obtain ⟨φ, p1, p2⟩ := h.pos
  have inj : ∀ {n n'}, φ n = φ n' → n = n' := by
    intro n n' e
    rcases Nat.lt_trichotomy n n' with h | h | h
    · have := p1 _ _ h; omega
    · exact h
    · have := p1 _ _ h; omega
  have cr : ∀ {n iss t}, Creates d n iss t → Creates (logOf c) (φ n) iss t := by
    rintro n iss t ⟨e, h1, h2⟩
    exact ⟨_, p2 n e h1, h2⟩
  exact ⟨fun n n' iss iss' t t' h1 h2 e => inj (hF.ids _ _ _ _ _ _ (cr h1) (cr h2) e),
    fun n n' iss t t' h1 h2 e => inj (hF.values _ _ _ _ _ (cr h1) (cr h2) e)⟩

/-- A call of the server that touches a store is a call of a service. -/
theorem _root_.Verif.Spec.Refines.back {own : Nat → Nat} {c : Conf} {d : Verif.Conf} (h : Refines S own c d) {e : Entry}
    (he : e ∈ c.log) (ht : touches e.cmd = true) : ∃ e' ∈ d.log, relabel own e' = e := by
  have : e ∈ c.log.filter fun e => touches e.cmd := List.mem_filter.2 ⟨he, ht⟩
  rw [← h.all] at this
  obtain ⟨e', h1, h2⟩ := List.mem_map.1 (List.mem_filter.1 this).1
  exact ⟨e', h1, h2⟩

theorem Asked.unique {c : Conf} {i : Nat} {route route' : Route} {r r' : Req} (h : Asked c i route r)
    (h' : Asked c i route' r') : route = route' ∧ r = r' := by
  obtain ⟨t, h1, rfl, rfl⟩ := h
  obtain ⟨t', h1', rfl, rfl⟩ := h'
  rw [h1] at h1'; cases h1'
  exact ⟨rfl, rfl⟩

theorem Answered.asked {c : Conf} {i : Nat} {route : Route} {r : Req} {a : Resp} (h : Answered c i route r a) :
    Asked c i route r := by
  obtain ⟨t, h1, h2, h3, _⟩ := h
  exact ⟨t, h1, h2, h3⟩

/-- The service request behind an HTTP answer. -/
theorem _root_.Verif.Spec.Refines.behind {own : Nat → Nat} {c : Conf} {d : Verif.Conf} (h : Refines S own c d) {i : Nat} {route : Route}
    {r : Req} {a : Resp} (ha : Answered c i route r a) (hr : ¬ NoResult a) :
    ∃ j q x, own j = i ∧ Verif.Answered d j q x ∧ Conveys S x a ∧
      StandsFor S r (callsOf S.E i c.log) (fun q' a => ∃ j', own j' = i ∧ Verif.Answered d j' q' a) route q := by
  rcases h.answered i route r a ha with h' | ⟨j, q, x, rfl, h1, h2⟩
  · exact absurd h' hr
  · obtain ⟨route', r', h3, h4⟩ := h.asked j q h1.asked
    obtain ⟨rfl, rfl⟩ := h3.unique ha.asked
    exact ⟨j, q, x, rfl, h1, h2, h4⟩

/-- Service requests are answered in kind. -/
theorem kind_token {E : Env} {s : St} {ls : List Verif.Label} {j : Nat} {q : Verif.Req} {a : TokenResp}
    (h : Verif.Answered (Verif.run E s ls) j q (.token a)) : ∃ r, q = .token r := by
  cases q <;> first
    | exact ⟨_, rfl⟩
    | (obtain ⟨b, e, _⟩ := exec_map h.exec; cases e)

theorem not_dpop {E : Env} {s : St} {ls : List Verif.Label} {j : Nat} {p : DPoP.VerifyReq} {x : Verif.Resp} {a : Resp}
    (h : Verif.Answered (Verif.run E s ls) j (.dpop p) x) (hc : Conveys S x a) : False := by
  obtain ⟨b, rfl, _⟩ := exec_map h.exec
  cases hc

/-- Tokens come from the token service. -/
theorem _root_.Verif.Spec.Refines.tokens {own : Nat → Nat} {c : Conf} {s : St} {ls : List Verif.Label}
    (h : Refines S own c (Verif.run S.E s ls)) {i : Nat} {r : Req} {b : TokenBody}
    (ha : Answered c i .token r ⟨200, .tokens b⟩) :
    ∃ j c0 cnf g a t md, own j = i ∧ Verif.Answered (Verif.run S.E s ls) j
        (.token (some ⟨S.issuer, some c0, r.formValue g!"grant_type", none, cnf, none, g⟩)) (.token a) ∧
      Succeeds a ∧ a.accessToken = some t ∧ t.metadata = some md ∧ b.accessToken = t.value ∧ b.scope = md.scope ∧
      FromClient S.P r (callsOf S.E i c.log) c0 ∧ FormGrant r g ∧ (cnf.isSome = true ↔ r.dpop ≠ []) ∧
      (∀ k, cnf = some k → ∃ j', own j' = i ∧ Verif.Answered (Verif.run S.E s ls) j'
        (.dpop { htm := r.method, htu := r.url, proof := r.dpop }) (.dpop (some k.jkt))) := by
  obtain ⟨j, q, x, hj, h1, h2, h3⟩ := h.behind ha (by simp [NoResult])
  cases h2 with
  | tokens a t md _ g1 g2 g3 g4 g5 g6 =>
    obtain ⟨q', rfl⟩ := kind_token h1
    cases h3 with
    | token c0 cnf g k1 k2 k3 k4 k5 k6 =>
      exact ⟨j, c0, cnf, g, a, t, md, hj, h1, g1, g2, g3, g4, g5, k2, k3, k4, k6⟩

/-- The registrations never change. -/
theorem clients_const (S : Server) (s : St) (hls : List Label) :
    (run S s hls).st.clients = s.clients ∧ ∀ e ∈ (run S s hls).log, e.pre.clients = s.clients := by
  induction hls using List.reverseRecOn with
  | nil => exact ⟨rfl, by simp [run]⟩
  | append_singleton hls l ih =>
    have hr : run S s (hls ++ [l]) = step S (run S s hls) l := by simp [run]
    rw [hr]
    cases l with
    | arrive route r => exact ih
    | tick n => exact ih
    | run i ch =>
      simp only [step]
      split
      · rename_i route req cmd k _
        refine ⟨(Verif.Store.exec_const S.E cmd ch _).1.trans ih.1, fun e he => ?_⟩
        rcases List.mem_append.1 he with he | he
        · exact ih.2 e he
        · simp at he; subst he; exact ih.1
      · exact ih

theorem client_found {s : St} {hls : List Label} {i : Nat} {id : Str} {cl : Client}
    (h : ⟨.clientsGet id, .ok (some cl)⟩ ∈ callsOf S.E i (run S s hls).log) : s.clients id = some cl := by
  obtain ⟨n, e, h1, _, h3⟩ := mem_callsOf_iff.1 h
  have hc := (clients_const S s hls).2 e (List.mem_of_getElem? h1)
  obtain ⟨tid, cmd, ⟨f, str⟩, pre⟩ := e
  simp only [Entry.ev, Sigma.mk.injEq] at h3
  obtain ⟨rfl, h3⟩ := h3
  simp only at hc
  rw [← hc]
  have h3 := eq_of_heq h3
  revert h3
  simp only [Entry.res, Store.exec]
  cases f <;> cases pre.clients id <;> simp [Store.faulty, Store.found]

/-- Whom an authorization request of the services stands for. -/
theorem _root_.Verif.Spec.Refines.user {own : Nat → Nat} {s : St} {hls : List Label} {d : Verif.Conf}
    (h : Refines S own (run S s hls) d) {j : Nat} {q : AuthorizeReq} (hq : Verif.Asked d j (.authorize (some q))) :
    ∃ rk cl u ar, UserAt S s (run S s hls) (own j) rk cl u q.subject ar ∧ q.issuer = S.issuer ∧ q.request = some ar := by
  obtain ⟨route, r, h1, h2⟩ := h.asked j _ hq
  cases h2 with
  | authorize u sub cl ar k1 k2 k3 k4 k5 => exact ⟨r, cl, u, ar, ⟨h1, k1, k2, client_found k3, k4, k5⟩, rfl, rfl⟩

/-- Which pushed request a push request of the services stands for. -/
theorem _root_.Verif.Spec.Refines.push {own : Nat → Nat} {c : Conf} {d : Verif.Conf}
    (h : Refines S own c d) {j : Nat} {p : RegistrationReq} (hq : Verif.Asked d j (.register (some p))) :
    ∃ rk cp ar, PushedAt S c (own j) rk cp ar ∧ p.request = some ar := by
  obtain ⟨route, r, h1, h2⟩ := h.asked j _ hq
  cases h2 with
  | par cp ar _ k1 k2 k3 k4 => exact ⟨r, cp, ar, ⟨h1, k1, k2, k3⟩, rfl⟩

/-- Whom a token request of the services stands for. -/
theorem _root_.Verif.Spec.Refines.client {own : Nat → Nat} {c : Conf} {d : Verif.Conf}
    (h : Refines S own c d) {j : Nat} {q : TokenReq} (hq : Verif.Asked d j (.token (some q))) :
    ∃ r c0, Asked c (own j) .token r ∧ FromClient S.P r (callsOf S.E (own j) c.log) c0 ∧ q.client = some c0 ∧
      q.issuer = S.issuer ∧ FormGrant r q.grant := by
  obtain ⟨route, r, h1, h2⟩ := h.asked j _ hq
  cases h2 with
  | token c0 cnf g k1 k2 k3 k4 k5 k6 => exact ⟨r, c0, h1, k2, rfl, rfl, k3⟩

/-- What the authorization request of a code means. -/
theorem _root_.Verif.Spec.Refines.means {own : Nat → Nat} {c : Conf} {d : Verif.Conf}
    (h : Refines S own c d) {q : AuthorizeReq} {ar sub r : AuthzRequest} (hr : q.request = some ar)
    (hi : q.issuer = S.issuer) (hs : Submitted d q sub r) : StandsIn S c ar sub := by
  cases hs with
  | direct _ h1 h2 =>
    rw [hr] at h1; cases h1
    exact .itself h2
  | pushed r0 _ _ uri k p h1 h2 h3 h4 h5 h6 h7 =>
    rw [hr] at h1; cases h1
    obtain ⟨rk, cp, ar', h8, h9⟩ := h.push h3
    rw [h5] at h9; cases h9
    obtain ⟨e, he, e1, e2⟩ := h7
    exact .pushed uri (own k) rk cp sub r (relabel own e) h2 h8 (h.mem he) (by simp [relabel, e1]) (by simp [relabel, e2, hi])

/-- The grant of a code form. -/
theorem formGrant_code {r : Req} {g : Option Grant} (h : FormGrant r g)
    (hr : r.formValue g!"grant_type" = g!"authorization_code") : g = some (.authorizationCode
      ⟨r.formValue g!"code", r.formValue g!"redirect_uri", r.formValue g!"code_verifier"⟩) := by
  cases h with
  | code _ => rfl
  | credentials h => rw [hr] at h; exact absurd h (by decide)
  | device h => rw [hr] at h; exact absurd h (by decide)
  | refresh h => rw [hr] at h; exact absurd h (by decide)
  | other h _ _ _ => exact absurd hr h

theorem formGrant_refresh {r : Req} {g : Option Grant} (h : FormGrant r g)
    (hr : r.formValue g!"grant_type" = g!"refresh_token") : g = some (.refreshToken (r.formValue g!"refresh_token")) := by
  cases h with
  | refresh _ => rfl
  | credentials h => rw [hr] at h; exact absurd h (by decide)
  | device h => rw [hr] at h; exact absurd h (by decide)
  | code h => rw [hr] at h; exact absurd h (by decide)
  | other _ _ _ h => exact absurd hr h

theorem formGrant_device {r : Req} {g : Option Grant} (h : FormGrant r g)
    (hr : r.formValue g!"grant_type" = g!"urn:ietf:params:oauth:grant-type:device_code") :
    g = some (.deviceCode (r.formValue g!"device_code")) := by
  cases h with
  | device _ => rfl
  | credentials h => rw [hr] at h; exact absurd h (by decide)
  | refresh h => rw [hr] at h; exact absurd h (by decide)
  | code h => rw [hr] at h; exact absurd h (by decide)
  | other _ _ h _ => exact absurd hr h

theorem formGrant_credentials {r : Req} {g : Option Grant} (h : FormGrant r g) (hg : g = some .clientCredentials) :
    r.formValue g!"grant_type" = g!"client_credentials" := by
  cases h with
  | credentials h => exact h
  | _ => simp at hg

/-- A redeemed code. -/
theorem _root_.Verif.Spec.Refines.redeems {own : Nat → Nat} {c : Conf} {s : St} {ls : List Verif.Label}
    (h : Refines S own c (Verif.run S.E s ls)) {i : Nat} {code : Str} {r : Req} {b : TokenBody}
    (ha : GotTokens c i code r b) :
    ∃ j c0 cnf a t md, own j = i ∧ Redeems (Verif.run S.E s ls) j S.issuer code
        ⟨S.issuer, some c0, r.formValue g!"grant_type", none, cnf, none, some (.authorizationCode
          ⟨r.formValue g!"code", r.formValue g!"redirect_uri", r.formValue g!"code_verifier"⟩)⟩
        ⟨r.formValue g!"code", r.formValue g!"redirect_uri", r.formValue g!"code_verifier"⟩ a ∧
      a.accessToken = some t ∧ t.metadata = some md ∧ b.accessToken = t.value ∧ b.scope = md.scope ∧
      FromClient S.P r (callsOf S.E i c.log) c0 ∧ (cnf.isSome = true ↔ r.dpop ≠ []) := by
  obtain ⟨j, c0, cnf, g, a, t, md, h1, h2, h3, h4, h5, h6, h7, h8, h9, h10, _⟩ := h.tokens ha.answered
  obtain rfl := formGrant_code h9 ha.grant
  exact ⟨j, c0, cnf, a, t, md, h1, ⟨h2, rfl, rfl, ha.code, h3⟩, h4, h5, h6, h7, h8, h10⟩

end Verif.Http
