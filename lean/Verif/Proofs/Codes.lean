import Verif.Proofs.Handle

/-! Life of an authorization code in an arbitrary history. -/
namespace Verif
open Verif.Prog Verif.Store Verif.Spec Verif.TokenSvc
variable {E : Env}

/-! ### Counting calls -/

/-- At most `n` calls satisfy `S`. -/
def Most {α : Type} (S : Cmd → Bool) : Nat → Prog α → Prop
  | _, .ret _ => True
  | _, .panic => True
  | n, .op c k => if S c = true then 0 < n ∧ ∀ r, Most S (n - 1) (k r) else ∀ r, Most S n (k r)

theorem most_of_only {α : Type} {S T : Cmd → Bool} {p : Prog α} (h : Only T p) (hd : ∀ c, T c = true → S c = false)
    (n : Nat) : Most S n p := by
  induction p with
  | ret a => trivial
  | panic => trivial
  | op c k ih =>
    have := hd c h.1
    simp only [Most, this, Bool.false_eq_true, if_false]
    exact fun r => ih r (h.2 r)

theorem most_bind {α β : Type} {S : Cmd → Bool} {n : Nat} {p : Prog α} {f : α → Prog β}
    (hp : ∀ n, Most S n p) (hf : ∀ a, Most S n (f a)) : Most S n (p >>= f) := by
  have key : ∀ (p : Prog α), Most S 0 p → Most S n (p >>= f) := by
    intro p
    induction p with
    | ret a => intro _; exact hf a
    | panic => intro _; trivial
    | op c k ih =>
      intro h
      simp only [Most] at h
      split at h
      · omega
      · rename_i hc
        simp only [bind_op, Most, hc]
        exact fun r => ih r (h r)
  exact key p (hp 0)

theorem most_count {α : Type} {S : Cmd → Bool} {p : Prog α} {n : Nat} (h : Most S n p) {tr : List Ev} {o : Outcome α}
    (e : Exec p tr o) : (tr.filter (fun ev => S ev.1)).length ≤ n := by
  induction p generalizing n tr with
  | ret a => cases e <;> simp
  | panic => cases e <;> simp
  | op c k ih =>
    cases e with
    | stop => simp
    | step _ _ r tr o e =>
      simp only [Most] at h
      split at h
      · rename_i hc
        have := ih r (h.2 r) e
        simp only [List.filter_cons, hc, if_true, List.length_cons]
        omega
      · rename_i hc
        have := ih r (h r) e
        simp only [List.filter_cons, hc]
        exact this

/-- Is this a storage of a code session? -/
def isReg : Cmd → Bool
  | .csReg .. => true
  | _ => false

theorem most_authorize (E : Env) (r : Option AuthorizeReq) : Most isReg 1 (Authorization.authorize E r) := by
  have hw : ∀ i s r, Most isReg 1 (Authorization.authorizeWith E i s r) := by
    intro i s r
    refine most_bind (fun n => most_of_only (only_validate (S := fun c => !isReg c) (fun _ => rfl) E r) (by simp) n) ?_
    intro a
    cases a with
    | error e => trivial
    | ok ar =>
      simp only [Prog.call, bind_op, bind_ret, pure_eq, Most, isReg]
      simp only [Bool.false_eq_true, if_false]
      rintro (_ | code)
      · trivial
      · simp only [Most, isReg, if_true]
        refine ⟨by omega, ?_⟩
        rintro (_ | u) <;> trivial
  unfold Authorization.authorize
  split
  · trivial
  split
  · trivial
  split
  · trivial
  split
  · trivial
  split
  · exact hw _ _ _
  split
  · trivial
  simp only [Prog.call, bind_op, bind_ret, pure_eq, Most, isReg, Bool.false_eq_true, if_false]
  rintro ((_ | _) | ar)
  · trivial
  · trivial
  · simp only [Most, isReg, Bool.false_eq_true, if_false]
    rintro ((_ | _) | u)
    · trivial
    · trivial
    · exact hw _ _ _

/-! ### The session behind a code -/

theorem codes_timeless (K : Str) (v : Option (CodeSession × Nat)) : Timeless (fun st => st.codes K = v) := by
  rintro s s' ⟨d, rfl⟩
  exact Iff.rfl

theorem code_made {e : Entry} {K : Str} {cs : CodeSession} {exp : Nat} (h1 : ¬ e.pre.codes K = some (cs, exp))
    (h2 : (e.post E).codes K = some (cs, exp)) :
    ∃ i k, e.cmd = .csReg i k cs ∧ codeKey E i k = K ∧ exp = e.time + 60 * second := by
  rcases exec_codes E e.cmd e.choice e.pre with h | ⟨i, k, _, h⟩ | ⟨i, k, cs', hc, h⟩
  · rw [Entry.post, h] at h2; exact absurd h2 h1
  · rw [Entry.post, h] at h2
    simp only [upd] at h2
    split at h2
    · simp at h2
    · exact absurd h2 h1
  · rw [Entry.post, h] at h2
    simp only [upd] at h2
    split at h2
    · rename_i hk
      simp at h2
      obtain ⟨rfl, rfl⟩ := h2
      exact ⟨i, k, hc, hk.symm, rfl⟩
    · exact absurd h2 h1

/-- A session found was stored earlier under the same key, at most 60 seconds ago,
and stayed in place in between. -/
theorem code_origin {s : St} {ls : List Label} (hE : ∀ k, s.codes k = none) {n : Nat} {e : Entry}
    (he : (run E s ls).log[n]? = some e) {iss code : Str} {cs : CodeSession}
    (hev : e.ev E = ⟨.csGet iss code, .ok (some cs)⟩) :
    ∃ m e0 i k, m < n ∧ (run E s ls).log[m]? = some e0 ∧ e0.cmd = .csReg i k cs ∧
      codeKey E i k = codeKey E iss code ∧ e.time ≤ e0.time + 60 * second ∧
      ∀ j e', m < j → j < n → (run E s ls).log[j]? = some e' →
        (e'.post E).codes (codeKey E iss code) = some (cs, e0.time + 60 * second) := by
  obtain ⟨exp, h1, h2⟩ := Entry.csGet_ok hev
  have hn : ¬ s.codes (codeKey E iss code) = some (cs, exp) := by rw [hE]; simp
  obtain ⟨m, e0, a1, a2, a3, a4, a5⟩ := (linked_run E s ls).made (codes_timeless _ _) hn he h1
  obtain ⟨i, k, b1, b2, b3⟩ := code_made a3 a4
  subst b3
  exact ⟨m, e0, i, k, a1, a2, b1, b2, h2, fun j e' x y z => (a5 j e' x y z).2⟩

/-- After an acknowledged deletion, a session found was stored again in between. -/
theorem code_restored {s : St} {ls : List Label} {d n : Nat} {ed e : Entry} (hdn : d < n)
    (hd : (run E s ls).log[d]? = some ed) (he : (run E s ls).log[n]? = some e)
    {iss code iss' code' : Str} {cs : CodeSession} (hdel : ed.ev E = ⟨.csDel iss' code', .ok ()⟩)
    (hev : e.ev E = ⟨.csGet iss code, .ok (some cs)⟩) (hK : codeKey E iss' code' = codeKey E iss code) :
    ∃ m e0 i k, d < m ∧ m < n ∧ (run E s ls).log[m]? = some e0 ∧ e0.cmd = .csReg i k cs ∧
      codeKey E i k = codeKey E iss code := by
  obtain ⟨exp, h1, _⟩ := Entry.csGet_ok hev
  have hn : ¬ (ed.post E).codes (codeKey E iss code) = some (cs, exp) := by
    rw [← hK, Entry.csDel_ok hdel]; simp
  obtain ⟨m, e0, a0, a1, a2, a3, a4, _⟩ := (linked_run E s ls).madeSince (codes_timeless _ _) hd hn hdn he h1
  obtain ⟨i, k, b1, b2, _⟩ := code_made a3 a4
  exact ⟨m, e0, i, k, a0, a1, a2, b1, b2⟩

/-- Where a successful redemption looked up and deleted the session. -/
theorem redeems_calls {s : St} {ls : List Label} {i : Nat} {iss code : Str} {q : TokenReq} {g : GrantCode}
    {a : TokenResp} (h : Redeems (run E s ls) i iss code q g a) :
    ∃ c0 cl evs cs ar mint, ∃ (n : Nat) (e : Entry) (d : Nat) (ed : Entry), q.client = some c0 ∧
      callsOf E i (run E s ls).log = ⟨.clientsGet c0.clientId, .ok (some cl)⟩ :: evs ∧
      CodeGrant E cl q g a evs cs ar mint ∧
      (run E s ls).log[n]? = some e ∧ e.tid = i ∧ e.ev E = ⟨.csGet iss code, .ok (some cs)⟩ ∧
      (run E s ls).log[d]? = some ed ∧ ed.tid = i ∧ ed.ev E = ⟨.csDel iss code, .ok ()⟩ ∧ n < d := by
  obtain ⟨hans, rfl, hg, rfl, hs⟩ := h
  rcases token_exec hans.token with ⟨hr, _⟩ | ⟨q', c, cl, evs, h1, h2, h3, hsucc⟩
  · rw [Succeeds, hr.1] at hs; simp at hs
  · simp at h1; subst h1
    cases hsucc with
    | code g' cs ar mint hg' ht' h =>
      rw [hg] at hg'; simp at hg'; subst hg'
      have i1 : (callsOf E i (run E s ls).log)[1]? = some ⟨.csGet q.issuer g.code, .ok (some cs)⟩ := by
        rw [h3, h.trace]; rfl
      have i2 : (callsOf E i (run E s ls).log)[2]? = some ⟨.csDel q.issuer g.code, .ok ()⟩ := by
        rw [h3, h.trace]; rfl
      obtain ⟨n, e, n1, n2, n3, n4⟩ := callsOf_index i1
      obtain ⟨d, ed, d1, d2, d3, d4⟩ := callsOf_index i2
      exact ⟨c, cl, evs, cs, ar, mint, n, e, d, ed, h2, h3, h, n1, n2, n3, d1, d2, d3,
        callsOf_lt n4 d4 (by omega)⟩
    | device dc' ref session dreq subject now mint hg' ht' h => rw [hg] at hg'; simp at hg'
    | refresh v' rt md now mint hg' ht' h => rw [hg] at hg'; simp at hg'
    | cc at_ hg' ht' h => rw [hg] at hg'; simp at hg'
    | exchange g' st md now now2 jti v aud t' look hg' ht' h => rw [hg] at hg'; simp at hg'

/-- The answer to a failed session lookup. -/
def LookupFailed (tr : List Ev) (a : TokenResp) : Prop :=
  ∀ i code e, ⟨.csGet i code, .error e⟩ ∈ tr → a = fail (if e = .notFound then .invalidGrant else .serverError)

/-- Calls other than session lookups. -/
def noGet : Cmd → Bool
  | .csGet .. => false
  | _ => true

theorem lookupFailed_of_only {p : Prog TokenResp} (hp : Only noGet p) {acc : List Ev}
    (h : ∀ i code e, ⟨.csGet i code, .error e⟩ ∉ acc) : Done LookupFailed p acc := by
  induction p generalizing acc with
  | ret a => exact fun i code e he => absurd he (h i code e)
  | panic => trivial
  | op c k ih =>
    intro r
    refine ih r (hp.2 r) ?_
    intro i code e he
    rcases List.mem_append.1 he with he | he
    · exact h i code e he
    · simp only [List.mem_singleton] at he
      have h1 := hp.1
      cases he
      simp [noGet] at h1

theorem only_generateAccessToken (cl : Client) (md : TokenMeta) (cnf : Option Cnf) :
    Only noGet (generateAccessToken cl md cnf) := by
  unfold generateAccessToken
  simp only [Prog.call, bind_op, bind_ret, pure_eq]
  walk

theorem only_generateRefreshToken (cl : Client) (md : TokenMeta) (cnf : Option Cnf) :
    Only noGet (generateRefreshToken cl md cnf) := by
  unfold generateRefreshToken
  simp only [Prog.call, bind_op, bind_ret, pure_eq]
  walk

theorem only_codeTokens (cl : Client) (q : TokenReq) (sub : Str) (ar : AuthzRequest) :
    Only noGet (codeTokens cl q sub ar) := by
  unfold codeTokens
  simp only
  split
  · refine only_bind (only_generateAccessToken _ _ _) ?_
    rintro (_ | at_)
    · trivial
    · simp only
      split
      · refine only_bind (only_generateRefreshToken _ _ _) ?_
        rintro (_ | rt) <;> trivial
      · trivial
  · trivial

/-- A code-grant request whose session lookup fails is refused; when the store
says the session does not exist, with `invalid_grant`. -/
theorem token_csGet_error (E : Env) (req : Option TokenReq) : Done LookupFailed (token E req) [] := by
  have hnil : ∀ a, Done LookupFailed (Prog.ret a) [] := fun a => lookupFailed_of_only (p := .ret a) trivial (by simp)
  unfold token
  split
  · exact hnil _
  · trivial
  · rename_i q hv
    split
    · trivial
    · rename_i c hc
      simp only [Prog.call, bind_op, bind_ret, pure_eq, Done]
      have hacc : ∀ (r : SRes (Option Client)) i code e,
          (⟨.csGet i code, .error e⟩ : Ev) ∉ ([⟨.clientsGet c.clientId, r⟩] : List Ev) := by
        intro r i code e h; simp at h
      rintro ((_ | _) | client)
      · exact lookupFailed_of_only (p := .ret _) trivial (hacc _)
      · exact lookupFailed_of_only (p := .ret _) trivial (hacc _)
      · have hother : ∀ {p : Prog TokenResp}, (∀ g, q.grant ≠ some (.authorizationCode g)) →
            Calls (Justified E (some q)) p ([] ++ [⟨.clientsGet c.clientId, .ok client⟩]) →
            Done LookupFailed p ([] ++ [⟨.clientsGet c.clientId, .ok client⟩]) := by
          intro p hng hcalls
          refine lookupFailed_of_only (only_calls (S := noGet) (calls_mono hcalls ?_)) (hacc _)
          intro tr c hj
          cases c <;> try rfl
          obtain ⟨q', g, e, h2, _⟩ := hj.get _ _ rfl
          cases e
          exact absurd h2 (hng g)
        cases client with
        | none =>
          simp only
          unfold dispatch
          repeat' (first | exact lookupFailed_of_only (p := .ret _) trivial (hacc _) | split)
        | some cl =>
          simp only
          unfold dispatch
          split
          · split
            · rename_i h; exact hother (by simp [h]) (clientCredentials_calls rfl hc (by assumption) _ (by simp))
            · exact lookupFailed_of_only (p := .ret _) trivial (hacc _)
          split
          · split
            · rename_i g hg
              unfold authorizationCode
              simp only
              split; · exact lookupFailed_of_only (p := .ret _) trivial (hacc _)
              split; · exact lookupFailed_of_only (p := .ret _) trivial (hacc _)
              split; · exact lookupFailed_of_only (p := .ret _) trivial (hacc _)
              split; · exact lookupFailed_of_only (p := .ret _) trivial (hacc _)
              split; · exact lookupFailed_of_only (p := .ret _) trivial (hacc _)
              split; · exact lookupFailed_of_only (p := .ret _) trivial (hacc _)
              split; · exact lookupFailed_of_only (p := .ret _) trivial (hacc _)
              simp only [Prog.call, bind_op, bind_ret, pure_eq, Done]
              rintro ((_ | _) | (_ | sess))
              · intro i code e he
                simp at he
                rw [he.2]; rfl
              · intro i code e he
                simp at he
                rw [he.2]; rfl
              · trivial
              · simp only
                refine lookupFailed_of_only ?_ (by simp)
                split
                · trivial
                · refine ⟨rfl, ?_⟩
                  rintro (_ | u)
                  · trivial
                  · simp only
                    split
                    · trivial
                    · exact only_codeTokens _ _ _ _
            · exact lookupFailed_of_only (p := .ret _) trivial (hacc _)
          split
          · split
            · rename_i h; exact hother (by simp [h]) (deviceCode_calls rfl hc _ (by assumption) _ (by simp))
            · exact lookupFailed_of_only (p := .ret _) trivial (hacc _)
          split
          · split
            · rename_i h; exact hother (by simp [h]) (refreshToken_calls rfl hc _ (by assumption) _ (by simp))
            · exact lookupFailed_of_only (p := .ret _) trivial (hacc _)
          split
          · split
            · rename_i h; exact hother (by simp [h]) (tokenExchange_calls rfl hc _ (by assumption) _ (by simp))
            · exact lookupFailed_of_only (p := .ret _) trivial (hacc _)
          · exact lookupFailed_of_only (p := .ret _) trivial (hacc _)

/-! ### Pushed requests -/

theorem requests_timeless (K : Str) (v : Option (AuthzRequest × Nat)) : Timeless (fun st => st.requests K = v) := by
  rintro s s' ⟨d, rfl⟩
  exact Iff.rfl

theorem request_made {e : Entry} {K : Str} {r : AuthzRequest} {exp : Nat} (h1 : ¬ e.pre.requests K = some (r, exp))
    (h2 : (e.post E).requests K = some (r, exp)) :
    ∃ i k, e.cmd = .arReg i k r ∧ requestKey E i k = K ∧ exp = e.time + 60 * second := by
  rcases exec_requests E e.cmd e.choice e.pre with h | ⟨i, k, _, h⟩ | ⟨i, k, r', hc, h⟩
  · rw [Entry.post, h] at h2; exact absurd h2 h1
  · rw [Entry.post, h] at h2
    simp only [upd] at h2
    split at h2
    · simp at h2
    · exact absurd h2 h1
  · rw [Entry.post, h] at h2
    simp only [upd] at h2
    split at h2
    · rename_i hk
      simp at h2
      obtain ⟨rfl, rfl⟩ := h2
      exact ⟨i, k, hc, hk.symm, rfl⟩
    · exact absurd h2 h1

theorem request_origin {s : St} {ls : List Label} (hE : ∀ k, s.requests k = none) {n : Nat} {e : Entry}
    (he : (run E s ls).log[n]? = some e) {iss uri : Str} {r : AuthzRequest}
    (hev : e.ev E = ⟨.arGet iss uri, .ok (some r)⟩) :
    ∃ m e0 i k, m < n ∧ (run E s ls).log[m]? = some e0 ∧ e0.cmd = .arReg i k r ∧
      requestKey E i k = requestKey E iss uri ∧ e.time ≤ e0.time + 60 * second ∧
      ∀ j e', m < j → j < n → (run E s ls).log[j]? = some e' →
        (e'.post E).requests (requestKey E iss uri) = some (r, e0.time + 60 * second) := by
  obtain ⟨exp, h1, h2⟩ := Entry.arGet_ok hev
  have hn : ¬ s.requests (requestKey E iss uri) = some (r, exp) := by rw [hE]; simp
  obtain ⟨m, e0, a1, a2, a3, a4, a5⟩ := (linked_run E s ls).made (requests_timeless _ _) hn he h1
  obtain ⟨i, k, b1, b2, b3⟩ := request_made a3 a4
  subst b3
  exact ⟨m, e0, i, k, a1, a2, b1, b2, h2, fun j e' x y z => (a5 j e' x y z).2⟩

theorem Entry.cmd_eq {e : Entry} {c : Cmd} {r : c.Res} (h : e.ev E = ⟨c, r⟩) : e.cmd = c := congrArg Sigma.fst h

theorem noKeyClash_code {c : Conf} (h : NoKeyClash E c) {m n : Nat} {e e' : Entry} (hm : c.log[m]? = some e)
    (hn : c.log[n]? = some e') {i k i' k' : Str} (h1 : (Kind.code, i, k) ∈ cells e.cmd)
    (h2 : (Kind.code, i', k') ∈ cells e'.cmd) (hk : codeKey E i k = codeKey E i' k') : i = i' ∧ k = k' :=
  h e (List.mem_of_getElem? hm) e' (List.mem_of_getElem? hn) _ _ _ _ _ h1 h2 hk

theorem noKeyClash_request {c : Conf} (h : NoKeyClash E c) {m n : Nat} {e e' : Entry} (hm : c.log[m]? = some e)
    (hn : c.log[n]? = some e') {i k i' k' : Str} (h1 : (Kind.request, i, k) ∈ cells e.cmd)
    (h2 : (Kind.request, i', k') ∈ cells e'.cmd) (hk : requestKey E i k = requestKey E i' k') : i = i' ∧ k = k' :=
  h e (List.mem_of_getElem? hm) e' (List.mem_of_getElem? hn) _ _ _ _ _ h1 h2 hk

/-- What an authorization acts on was submitted. -/
theorem acted_submitted {s : St} {ls : List Label} (hE : ∀ k, s.requests k = none)
    (hK : NoKeyClash E (run E s ls)) {j : Nat} {q : AuthorizeReq} {r : AuthzRequest} {tr : List Ev}
    (htr : tr ⊆ callsOf E j (run E s ls).log) (h : ActedOn q tr r) :
    ∃ sub, Submitted (run E s ls) q sub r := by
  obtain ⟨r0, h0, ⟨hn, rfl⟩ | ⟨uri, hu, hm⟩⟩ := h
  · exact ⟨r, .direct r h0 hn⟩
  · obtain ⟨n, e, he, _, hev⟩ := mem_callsOf_iff.1 (htr hm)
    obtain ⟨m, e0, i, k, a1, a2, a3, a4, _, _⟩ := request_origin hE he hev
    have hcl := noKeyClash_request hK a2 he (by rw [a3]; simp [cells]) (by rw [Entry.cmd_eq hev]; simp [cells]) a4
    obtain ⟨rfl, rfl⟩ := hcl
    obtain ⟨p, cl0, sub, b1, b2, b3, b4, b5, b6, b7, b8, b9⟩ := entry_arReg a2 a3
    exact ⟨sub, .pushed r0 sub r k e0.tid p h0 hu b1 b9.symm b4 b8 ⟨e0, List.mem_of_getElem? a2, rfl, a3⟩⟩

/-- Everything about a successful redemption: the redeeming side, the lookup and
the authorization that stored the session found. -/
theorem redeems_origin {s : St} {ls : List Label} (hC : ∀ k, s.codes k = none) (hR : ∀ k, s.requests k = none)
    (hK : NoKeyClash E (run E s ls)) {i : Nat} {iss code : Str} {tq : TokenReq} {g : GrantCode} {a : TokenResp}
    (h : Redeems (run E s ls) i iss code tq g a) :
    ∃ c0 cl evs cs ar mint, tq.client = some c0 ∧
      callsOf E i (run E s ls).log = ⟨.clientsGet c0.clientId, .ok (some cl)⟩ :: evs ∧
      CodeGrant E cl tq g a evs cs ar mint ∧
      ∃ (n : Nat) (e : Entry) (m : Nat) (e0 : Entry), m < n ∧
        (run E s ls).log[n]? = some e ∧ e.tid = i ∧ e.ev E = ⟨.csGet iss code, .ok (some cs)⟩ ∧
        (run E s ls).log[m]? = some e0 ∧ e0.cmd = .csReg iss code cs ∧ e.time ≤ e0.time + 60 * second ∧
        ∃ q sub, CodeFor (run E s ls) e0.tid iss code q sub ar ∧ cs = ⟨none, iss, q.subject, some ar⟩ := by
  obtain ⟨c0, cl, evs, cs, ar, mint, n, e, d, ed, h1, h2, h3, h4, h5, h6, h7, h8, h9, h10⟩ := redeems_calls h
  obtain ⟨m, e0, i', k', a1, a2, a3, a4, a5, a6⟩ := code_origin hC h4 h6
  have hcl := noKeyClash_code hK a2 h4 (by rw [a3]; simp [cells]) (by rw [Entry.cmd_eq h6]; simp [cells]) a4
  obtain ⟨rfl, rfl⟩ := hcl
  obtain ⟨q, r, eff, cl', b1, b2, b3, b4, b5, b6, b7, b8, b9, b10⟩ := entry_csReg a2 a3
  have hsub : callsOf E e0.tid ((run E s ls).log.take m) ⊆ callsOf E e0.tid (run E s ls).log := by
    intro x hx
    have := List.take_append_drop m (run E s ls).log
    rw [← this, callsOf_append]
    exact List.mem_append_left _ hx
  obtain ⟨sub, hsb⟩ := acted_submitted hR hK hsub b4
  have hreq : ar = eff := by have := h3.request; rw [b10] at this; simpa using this.symm
  subst hreq
  refine ⟨c0, cl, evs, cs, ar, mint, h1, h2, h3, n, e, m, e0, a1, h4, h5, h6, a2, a3, a5, q, sub, ?_, ?_⟩
  · exact ⟨b1, b9.symm, ⟨r, hsb, b6⟩, e0, List.mem_of_getElem? a2, rfl, by rw [a3, b10, b9]⟩
  · rw [b10, b9]

/-- Is this a storage of a pushed request? -/
def isPush : Cmd → Bool
  | .arReg .. => true
  | _ => false

theorem most_register (E : Env) (r : Option RegistrationReq) : Most isPush 1 (Authorization.register E r) := by
  unfold Authorization.register
  split
  · trivial
  split
  · trivial
  split
  · trivial
  · trivial
  split
  · trivial
  refine most_bind (fun n => most_of_only (only_validate (S := fun c => !isPush c) (fun _ => rfl) E _) (by simp) n) ?_
  intro a
  cases a with
  | error e => trivial
  | ok ar =>
    simp only
    split
    · trivial
    simp only [Prog.call, bind_op, bind_ret, pure_eq, Most, isPush, Bool.false_eq_true, if_false]
    rintro (_ | uri)
    · trivial
    · simp only [Most, isPush, if_true]
      refine ⟨by omega, ?_⟩
      rintro (_ | u) <;> trivial

theorem most_map {α β : Type} {S : Cmd → Bool} {f : α → β} {n : Nat} {p : Prog α} (h : Most S n p) :
    Most S n (p >>= fun a => .ret (f a)) := by
  induction p generalizing n with
  | ret a => trivial
  | panic => trivial
  | op c k ih =>
    simp only [Most, bind_op] at h ⊢
    split
    · rename_i hc; simp only [hc, if_true] at h; exact ⟨h.1, fun r => ih r (h.2 r)⟩
    · rename_i hc; simp only [hc] at h; exact fun r => ih r (h r)

/-- A request of a kind that makes at most one call of a kind makes it at one place. -/
theorem most_unique {s : St} {ls : List Label} {j : Nat} {r : Req} {S : Cmd → Bool}
    (hr : Asked (run E s ls) j r) (hmost : Most S 1 (handle E r)) {m m' : Nat} {e e' : Entry}
    (hm : (run E s ls).log[m]? = some e) (hm' : (run E s ls).log[m']? = some e') (hj : e.tid = j) (hj' : e'.tid = j)
    (hc : S e.cmd = true) (hc' : S e'.cmd = true) : m = m' := by
  have hcount := most_count hmost hr.exec
  have two : ∀ {m m' : Nat} {e e' : Entry}, (run E s ls).log[m]? = some e → (run E s ls).log[m']? = some e' →
      e.tid = j → e'.tid = j → S e.cmd = true → S e'.cmd = true → ¬ m < m' := by
    intro m m' e e' hm hm' hj hj' hc hc' hlt
    have hd : ((run E s ls).log.drop (m + 1))[m' - (m + 1)]? = some e' := by
      rw [List.getElem?_drop, ← hm']; congr 1; omega
    rw [callsOf_split hm hj, List.filter_append, List.filter_cons] at hcount
    have h1 : S (Entry.ev E e).1 = true := hc
    have h2 : S (Entry.ev E e').1 = true := hc'
    rw [if_pos h1, callsOf_split hd hj', List.filter_append, List.filter_cons, if_pos h2] at hcount
    simp at hcount
    omega
  rcases Nat.lt_trichotomy m m' with h | h | h
  · exact absurd h (two hm hm' hj hj' hc hc')
  · exact h
  · exact absurd h (two hm' hm hj' hj hc' hc)

/-- The calls of an authorization that refers to a pushed request and gets past
the lookup. -/
theorem authorize_pushed (E : Env) (q : AuthorizeReq) (r0 : AuthzRequest) (uri : Str)
    (hr : q.request = some r0) (hu : r0.requestUri = some uri) :
    Done (fun tr a => Issued a → ∃ ar rest, tr = ⟨.arGet q.issuer uri, .ok ar⟩ :: ⟨.arDel q.issuer uri, .ok ()⟩ :: rest)
      (Authorization.authorize E (some q)) [] := by
  unfold Authorization.authorize
  simp only [hr]
  split
  · intro h; simp [Issued, Authorization.fail] at h
  split
  · intro h; simp [Issued, Authorization.fail] at h
  simp only [hu]
  split
  · intro h; simp [Issued, Authorization.fail] at h
  simp only [Prog.call, bind_op, bind_ret, pure_eq, Done]
  rintro ((_ | _) | ar)
  · intro h; simp [Issued, Authorization.fail] at h
  · intro h; simp [Issued, Authorization.fail] at h
  · simp only [Done]
    rintro ((_ | _) | u)
    · intro h; simp [Issued, Authorization.fail] at h
    · intro h; simp [Issued, Authorization.fail] at h
    · simp only
      have : ∀ (p : Prog AuthorizeResp) (acc : List Ev), Done (fun tr _ => ∃ rest, tr = acc ++ rest) p acc := by
        intro p
        induction p with
        | ret a => intro acc; exact ⟨[], by simp⟩
        | panic => intro acc; trivial
        | op c k ih =>
          intro acc r
          refine done_mono (ih r (acc ++ [⟨c, r⟩])) ?_
          rintro tr _ ⟨rest, h⟩
          exact ⟨⟨c, r⟩ :: rest, by simp [h]⟩
      refine done_mono (this _ _) ?_
      rintro tr a ⟨rest, h⟩ _
      exact ⟨ar, rest, by simpa using h⟩

/-- A code-grant request that finds a session deletes it before anything else; if
the deletion fails the request fails. -/
def DeletesFound (tr : List Ev) (a : TokenResp) : Prop :=
  ∀ i code cs, ⟨.csGet i code, .ok (some cs)⟩ ∈ tr → cs.request.isSome = true →
    ∃ ev0 r rest, tr = ev0 :: ⟨.csGet i code, .ok (some cs)⟩ :: ⟨.csDel i code, r⟩ :: rest ∧
      (∀ ev ∈ rest, noGet ev.1 = true) ∧ (r ≠ .ok () → a = fail .serverError)

theorem deletesFound_of_only {p : Prog TokenResp} (hp : Only noGet p) {acc : List Ev}
    (h : ∀ i code r, ⟨.csGet i code, r⟩ ∉ acc) : Done DeletesFound p acc := by
  induction p generalizing acc with
  | ret a => exact fun i code cs he => absurd he (h i code _)
  | panic => trivial
  | op c k ih =>
    intro r
    refine ih r (hp.2 r) ?_
    intro i code e he
    rcases List.mem_append.1 he with he | he
    · exact h i code e he
    · simp only [List.mem_singleton] at he
      have h1 := hp.1
      cases he
      simp [noGet] at h1

theorem token_deletesFound (E : Env) (req : Option TokenReq) : Done DeletesFound (token E req) [] := by
  have hnil : ∀ a, Done DeletesFound (Prog.ret a) [] := fun a => deletesFound_of_only (p := .ret a) trivial (by simp)
  unfold token
  split
  · exact hnil _
  · trivial
  · rename_i q hv
    split
    · trivial
    · rename_i c hc
      simp only [Prog.call, bind_op, bind_ret, pure_eq, Done]
      have hacc : ∀ (r : SRes (Option Client)) i code (e : Cmd.Res (.csGet i code)),
          (⟨.csGet i code, e⟩ : Ev) ∉ ([⟨.clientsGet c.clientId, r⟩] : List Ev) := by
        intro r i code e h; simp at h
      rintro ((_ | _) | client)
      · exact deletesFound_of_only (p := .ret _) trivial (hacc _)
      · exact deletesFound_of_only (p := .ret _) trivial (hacc _)
      · have hother : ∀ {p : Prog TokenResp}, (∀ g, q.grant ≠ some (.authorizationCode g)) →
            Calls (Justified E (some q)) p ([] ++ [⟨.clientsGet c.clientId, .ok client⟩]) →
            Done DeletesFound p ([] ++ [⟨.clientsGet c.clientId, .ok client⟩]) := by
          intro p hng hcalls
          refine deletesFound_of_only (only_calls (S := noGet) (calls_mono hcalls ?_)) (hacc _)
          intro tr c hj
          cases c <;> try rfl
          obtain ⟨q', g, e, h2, _⟩ := hj.get _ _ rfl
          cases e
          exact absurd h2 (hng g)
        cases client with
        | none =>
          simp only
          unfold dispatch
          repeat' (first | exact deletesFound_of_only (p := .ret _) trivial (hacc _) | split)
        | some cl =>
          simp only
          unfold dispatch
          split
          · split
            · rename_i h; exact hother (by simp [h]) (clientCredentials_calls rfl hc (by assumption) _ (by simp))
            · exact deletesFound_of_only (p := .ret _) trivial (hacc _)
          split
          · split
            · rename_i g hg
              unfold authorizationCode
              simp only
              split; · exact deletesFound_of_only (p := .ret _) trivial (hacc _)
              split; · exact deletesFound_of_only (p := .ret _) trivial (hacc _)
              split; · exact deletesFound_of_only (p := .ret _) trivial (hacc _)
              split; · exact deletesFound_of_only (p := .ret _) trivial (hacc _)
              split; · exact deletesFound_of_only (p := .ret _) trivial (hacc _)
              split; · exact deletesFound_of_only (p := .ret _) trivial (hacc _)
              split; · exact deletesFound_of_only (p := .ret _) trivial (hacc _)
              simp only [Prog.call, bind_op, bind_ret, pure_eq, Done]
              rintro ((_ | _) | (_ | sess))
              · intro i code e he
                simp at he
              · intro i code e he
                simp at he
              · trivial
              · simp only
                cases hsr : sess.request with
                | none =>
                  intro i code cs he hs
                  simp at he
                  obtain ⟨_, rfl⟩ := he
                  rw [hsr] at hs; simp at hs
                | some ar =>
                  simp only [Done]
                  rintro (e | u)
                  · intro i code cs he hs
                    simp at he
                    obtain ⟨⟨rfl, rfl⟩, rfl⟩ := he
                    exact ⟨_, _, [], rfl, by simp, fun _ => rfl⟩
                  · -- the rest makes no lookup, so the shape stays
                    have key : ∀ (p : Prog TokenResp), Only noGet p → ∀ rest : List Ev,
                        Done DeletesFound p (⟨.clientsGet c.clientId, .ok (some cl)⟩ ::
                          ⟨.csGet q.issuer g.code, .ok (some sess)⟩ :: ⟨.csDel q.issuer g.code, .ok u⟩ ::
                          rest.filter (fun ev => noGet ev.1)) := by
                      intro p
                      induction p with
                      | ret a =>
                        intro _ rest i code cs he hs
                        simp only [List.mem_cons, List.mem_filter] at he
                        rcases he with he | he | he | he
                        · simp at he
                        · simp at he
                          obtain ⟨⟨rfl, rfl⟩, rfl⟩ := he
                          exact ⟨_, _, _, rfl, by simp, fun h => absurd rfl h⟩
                        · simp at he
                        · simp [noGet] at he
                      | panic => intro _ _; trivial
                      | op c' k ih =>
                        intro hp rest r
                        have := ih r (hp.2 r) (rest ++ [⟨c', r⟩])
                        simpa [List.filter_append, hp.1] using this
                    simp only
                    refine key _ ?_ []
                    split
                    · trivial
                    · exact only_codeTokens _ _ _ _
            · exact deletesFound_of_only (p := .ret _) trivial (hacc _)
          split
          · split
            · rename_i h; exact hother (by simp [h]) (deviceCode_calls rfl hc _ (by assumption) _ (by simp))
            · exact deletesFound_of_only (p := .ret _) trivial (hacc _)
          split
          · split
            · rename_i h; exact hother (by simp [h]) (refreshToken_calls rfl hc _ (by assumption) _ (by simp))
            · exact deletesFound_of_only (p := .ret _) trivial (hacc _)
          split
          · split
            · rename_i h; exact hother (by simp [h]) (tokenExchange_calls rfl hc _ (by assumption) _ (by simp))
            · exact deletesFound_of_only (p := .ret _) trivial (hacc _)
          · exact deletesFound_of_only (p := .ret _) trivial (hacc _)

/-- What a code session keeps of the request as submitted. -/
theorem Spec.CodeFor.kept {c : Conf} {j : Nat} {iss code : Str} {q : AuthorizeReq} {sub eff : AuthzRequest}
    (h : CodeFor c j iss code q sub eff) :
    { eff with scope := sub.scope, responseMode := sub.responseMode } = sub := by
  obtain ⟨r, hs, he⟩ := h.submitted
  have he' := he.rest
  cases hs with
  | direct _ _ _ => exact he'
  | pushed r0 _ _ uri k p _ _ _ _ _ hp _ =>
    have := hp.rest
    rw [← he'] at this
    exact this

/-- Is this a lookup of a pushed request? -/
def isArGet : Cmd → Bool
  | .arGet .. => true
  | _ => false

theorem most_arGet (E : Env) (r : Option AuthorizeReq) : Most isArGet 1 (Authorization.authorize E r) := by
  have hw : ∀ n i s r, Most isArGet n (Authorization.authorizeWith E i s r) := by
    intro n i s r
    refine most_bind (fun n => most_of_only (only_validate (S := fun c => !isArGet c) (fun _ => rfl) E r) (by simp) n) ?_
    intro a
    cases a with
    | error e => trivial
    | ok ar =>
      simp only [Prog.call, bind_op, bind_ret, pure_eq, Most, isArGet]
      simp only [Bool.false_eq_true, if_false]
      rintro (_ | code)
      · trivial
      · simp only [Most, isArGet, Bool.false_eq_true, if_false]
        rintro (_ | u) <;> trivial
  unfold Authorization.authorize
  split
  · trivial
  split
  · trivial
  split
  · trivial
  split
  · trivial
  split
  · exact hw _ _ _ _
  split
  · trivial
  simp only [Prog.call, bind_op, bind_ret, pure_eq, Most, isArGet, if_true]
  refine ⟨by omega, ?_⟩
  rintro ((_ | _) | ar)
  · trivial
  · trivial
  · simp only [Most, isArGet, Bool.false_eq_true, if_false]
    rintro ((_ | _) | u)
    · trivial
    · trivial
    · exact hw _ _ _ _

/-- The registrations never change. -/
theorem clients_const {s : St} {ls : List Label} {n : Nat} {e : Entry} (h : (run E s ls).log[n]? = some e) :
    e.pre.clients = s.clients ∧ e.pre.resources = s.resources := by
  refine Linked.keep (P := fun st => st.clients = s.clients ∧ st.resources = s.resources) ?_
    ((linked_run E s ls).at h).1 ?_ ⟨rfl, rfl⟩
  · rintro x y ⟨d, rfl⟩; exact Iff.rfl
  · intro e' _ he'
    have := exec_const E e'.cmd e'.choice e'.pre
    exact ⟨this.1.trans he'.1, this.2.trans he'.2⟩

theorem client_found {s : St} {ls : List Label} {i : Nat} {id : Str} {cl : Client}
    (h : ⟨.clientsGet id, .ok (some cl)⟩ ∈ callsOf E i (run E s ls).log) : s.clients id = some cl := by
  obtain ⟨n, e, h1, _, h3⟩ := mem_callsOf_iff.1 h
  have hc := (clients_const h1).1
  obtain ⟨tid, cmd, ⟨f, str⟩, pre⟩ := e
  simp only [Entry.ev, Sigma.mk.injEq] at h3
  obtain ⟨rfl, h3⟩ := h3
  simp only at hc
  rw [← hc]
  cases f <;> simp [Entry.res, exec, faulty] at h3
  cases hp : pre.clients id <;> simp [hp, found] at h3
  exact congrArg some h3

end Verif
