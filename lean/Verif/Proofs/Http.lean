import Verif.Spec.Http
import Verif.Props.ClientAuth
import Verif.Proofs.Footprint

/-! Decomposition of the executions of the HTTP endpoints. -/
set_option linter.unusedSimpArgs false
namespace Verif.Http
open Verif.Prog Verif.Spec Verif.ClientAuth

/-- Executions of a sequence, however they end. -/
theorem exec_bind {α β : Type} {p : Prog α} {f : α → Prog β} {tr : List Ev} {o : Outcome β}
    (h : Exec (p >>= f) tr o) :
    (∃ t1 t2 a, tr = t1 ++ t2 ∧ Exec p t1 (.done a) ∧ Exec (f a) t2 o) ∨
    (o = .panicked ∧ Exec p tr .panicked) ∨ (o = .stopped ∧ Exec p tr .stopped) := by
  induction p generalizing tr with
  | ret a => exact Or.inl ⟨[], tr, a, rfl, .ret a, h⟩
  | panic =>
    cases h with
    | panic => exact Or.inr (Or.inl ⟨rfl, .panic⟩)
    | stop => exact Or.inr (Or.inr ⟨rfl, .stop _⟩)
  | op c k ih =>
    rw [bind_op] at h
    cases h with
    | stop => exact Or.inr (Or.inr ⟨rfl, .stop _⟩)
    | step _ _ r tr _ h =>
      rcases ih r h with ⟨t1, t2, a, e, h1, h2⟩ | ⟨e, h1⟩ | ⟨e, h1⟩
      · exact Or.inl ⟨⟨c, r⟩ :: t1, t2, a, by simp [e], .step _ _ _ _ _ h1, h2⟩
      · exact Or.inr (Or.inl ⟨e, .step _ _ _ _ _ h1⟩)
      · exact Or.inr (Or.inr ⟨e, .step _ _ _ _ _ h1⟩)

theorem exec_err {n : Nat} {c : ErrCode} {tr : List Ev} {o : Outcome Resp} (h : Exec (err n c) tr o) :
    tr = [] ∧ (o = .done ⟨n, .error c⟩ ∨ o = .stopped) := by
  cases h with
  | ret => exact ⟨rfl, Or.inl rfl⟩
  | stop => exact ⟨rfl, Or.inr rfl⟩

theorem postValue_ne {r : Req} {k : Str} (h : r.postValue k ≠ []) : r.post k = some (r.postValue k) := by
  unfold Req.postValue at *
  cases hp : r.post k with
  | none => simp [hp] at h
  | some v => simp

theorem readOnly_reads {ev : Ev} (h : Props.isReadOnly ev.1 = true) : ReadsClients ev := by
  obtain ⟨c, x⟩ := ev
  cases c <;> simp [Props.isReadOnly] at h
  · exact Or.inl rfl
  · exact Or.inr ⟨_, rfl⟩

/-- What follows an authenticator. -/
theorem afterAuth_exec {P : Parsers} {r : Req} {h : Option Client → Prog Resp} {p : Prog AuthResult} {tr : List Ev}
    {o : Outcome Resp} (hro : Only Props.isReadOnly p)
    (hfrom : ∀ t a, Exec p t (.done a) → a.goErr = false → (∀ id, ⟨.clientsGet id, .ok none⟩ ∉ t) →
      ∃ c, a.resp = some { client := some c } ∧ FromClient P r t c)
    (he : Exec (p >>= afterAuth h) tr o) (hnil : ∀ id, ⟨.clientsGet id, .ok none⟩ ∉ tr) :
    ((∀ ev ∈ tr, ReadsClients ev) ∧ (∀ a, o = .done a → ∃ c, a = ⟨401, .error c⟩) ∧
      (o = .panicked → Exec p tr .panicked)) ∨
    ∃ c t1 t2, tr = t1 ++ t2 ∧ (∀ ev ∈ t1, ReadsClients ev) ∧ FromClient P r t1 c ∧ Exec (h (some c)) t2 o := by
  rcases exec_bind he with ⟨t1, t2, a, rfl, h1, h2⟩ | ⟨rfl, h1⟩ | ⟨rfl, h1⟩
  · have hr : ∀ ev ∈ t1, ReadsClients ev := fun ev hev => readOnly_reads (only_mem hro h1 ev hev)
    unfold afterAuth at h2
    cases hg : a.goErr with
    | true =>
      rw [hg] at h2
      obtain ⟨rfl, ho⟩ := exec_err h2
      refine Or.inl ⟨by simpa using hr, fun a ha => ?_, fun ha => ?_⟩
      · rcases ho with rfl | rfl
        · cases ha; exact ⟨_, rfl⟩
        · cases ha
      · rcases ho with rfl | rfl <;> cases ha
    | false =>
      obtain ⟨c, hc, hf⟩ := hfrom t1 a h1 hg (fun id hm => hnil id (List.mem_append_left _ hm))
      rw [hg, hc] at h2
      exact Or.inr ⟨c, t1, t2, rfl, hr, hf, h2⟩
  · exact Or.inl ⟨fun ev hev => readOnly_reads (only_mem hro h1 ev hev), by simp, fun _ => h1⟩
  · exact Or.inl ⟨fun ev hev => readOnly_reads (only_mem hro h1 ev hev), by simp, by simp⟩

/-- Serving a request behind client authentication: either the handler is not reached and
only clients and clock were read, or it is reached with a client the request comes from. -/
theorem clientAuth_exec {S : Server} {r : Req} {h : Option Client → Prog Resp} {tr : List Ev} {o : Outcome Resp}
    (he : Exec (clientAuth S r h) tr o) (hnil : ∀ id, ⟨.clientsGet id, .ok none⟩ ∉ tr) :
    ((∀ ev ∈ tr, ReadsClients ev) ∧ (∀ a, o = .done a → ∃ c, a = ⟨401, .error c⟩) ∧
      (o = .panicked → ∃ q, Exec (privateKeyJwt S.P (some q)) tr .panicked ∨
        Exec (clientAttestation S.P (some q)) tr .panicked)) ∨
    ∃ c t1 t2, tr = t1 ++ t2 ∧ (∀ ev ∈ t1, ReadsClients ev) ∧ FromClient S.P r t1 c ∧ Exec (h (some c)) t2 o := by
  unfold clientAuth at he
  split at he
  · rename_i hid
    cases he with
    | stop => exact Or.inl ⟨by simp, by simp, by simp⟩
    | step _ _ x tr' _ he' =>
      have hr : ReadsClients ⟨.clientsGet (r.get g!"client_id"), x⟩ := Or.inr ⟨_, rfl⟩
      change Exec (match x with
        | .error _ => err 401 .invalidClient
        | .ok none => Prog.panic
        | .ok (some client) => if client.clientType = .pub then h (some client) else err 401 .invalidClient) tr' o at he'
      rcases x with e | (_ | client)
      · obtain ⟨rfl, ho⟩ := exec_err he'
        refine Or.inl ⟨by simpa using hr, fun a ha => ?_, fun ha => ?_⟩
        · rcases ho with rfl | rfl
          · cases ha; exact ⟨_, rfl⟩
          · cases ha
        · rcases ho with rfl | rfl <;> cases ha
      · exact absurd (List.mem_cons_self ..) (hnil _)
      · dsimp only at he'
        split at he'
        · rename_i hp
          refine Or.inr ⟨client, [_], tr', rfl, by simpa using hr, ?_, he'⟩
          refine .named (r.get g!"client_id") ?_ hid (List.mem_cons_self ..) hp
          unfold Req.get at *
          cases hq : r.query g!"client_id" with
          | none => simp [hq] at hid
          | some v => simp
        · obtain ⟨rfl, ho⟩ := exec_err he'
          refine Or.inl ⟨by simpa using hr, fun a ha => ?_, fun ha => ?_⟩
          · rcases ho with rfl | rfl
            · cases ha; exact ⟨_, rfl⟩
            · cases ha
          · rcases ho with rfl | rfl <;> cases ha
  · dsimp only at he
    split at he
    · rename_i hty
      refine (afterAuth_exec (P := S.P) (r := r) (Props.C59_replay_violated S.P _).1 ?_ he hnil).imp
        (fun ⟨h1, h2, h3⟩ => ⟨h1, h2, fun hp => ⟨_, Or.inl (h3 hp)⟩⟩) id
      intro t a h1 hg _
      obtain ⟨x, jws, cl, now, client, keys, k, e1, e2, e3, e4, e5, e6, _, e8, e9, e10, e11, e12, e13, e14, e15⟩ :=
        Props.C42_private_key_jwt S.P _ t a h1 hg
      have hty' : r.post g!"client_assertion_type" = some _ := postValue_ne (by rw [hty]; simp [typeBearer])
      obtain rfl := Option.some.inj e2
      have ha : r.post g!"client_assertion" = some _ := postValue_ne (k := g!"client_assertion") (by
        intro h0
        rw [h0, hty] at h1
        rw [h0] at e3
        unfold privateKeyJwt at h1
        simp only [ne_eq, not_true_eq_false, if_false, if_true] at h1
        cases h1
        simp [ClientAuth.fail] at hg)
      exact ⟨client, e11, .key _ jws cl now keys k (by rw [hty', hty]; rfl) ha e3 e4 e5 e8 e9 e10 e12 e13 e14 e15⟩
    · split at he
      · rename_i hty
        refine (afterAuth_exec (P := S.P) (r := r) (Props.C59_replay_violated S.P _).2.1 ?_ he hnil).imp
          (fun ⟨h1, h2, h3⟩ => ⟨h1, h2, fun hp => ⟨_, Or.inr (h3 hp)⟩⟩) id
        intro t a h1 hg hn
        obtain ⟨att, pop, t1, c1, key, attester, keys, k, t2, c2, client, _, _, _, _, e1, e2, e3, e4, e5, _, e7, e8, e9, _,
          e11, _, _, _, _, e16, e17, e18, _, _, _, _, e23, e24⟩ := Props.C43_attestation_partial S.P _ t a h1 hg
        have hty' : r.post g!"client_assertion_type" = some _ := postValue_ne (by rw [hty]; simp [typeAttestation])
        have e2' := Option.some.inj e2
        have ha : r.post g!"client_assertion" = some _ := postValue_ne (k := g!"client_assertion") (by
          rw [e2']; simp)
        cases client with
        | none => exact absurd e23 (hn _)
        | some client =>
          exact ⟨client, e24, .attested att pop t1 t2 c1 c2 attester keys k key (by rw [hty', hty]; rfl)
            (by rw [ha, e2']) e3 e4 e5 e7 e8 e9 e11 e16 e17 e18 e23⟩
      · obtain ⟨rfl, ho⟩ := exec_err he
        refine Or.inl ⟨by simp, fun a ha => ?_, fun ha => ?_⟩
        · rcases ho with rfl | rfl
          · cases ha; exact ⟨_, rfl⟩
          · cases ha
        · rcases ho with rfl | rfl <;> cases ha

theorem exec_ret_done {α : Type} {a b : α} {tr : List Ev} (h : Exec (Prog.ret a) tr (.done b)) : tr = [] ∧ a = b := by
  cases h; exact ⟨rfl, rfl⟩

theorem not_err_tokens {n st : Nat} {c : ErrCode} {b : Body} {tr : List Ev} (h : Exec (err n c) tr (.done ⟨st, b⟩)) :
    b = .error c := by
  cases h; rfl

theorem withError_done {n : Nat} {e : Option OErr} {tr : List Ev} {a : Resp} (h : Exec (withError n e) tr (.done a)) :
    ∃ c, a = ⟨n, .error c⟩ := by
  unfold withError at h
  split at h
  · cases h
  · cases h; exact ⟨_, rfl⟩

/-- Serving a request behind the login form: either the handler is not reached and nothing
is called, or the credentials were those of the example user. -/
theorem basicAuth_exec {r : Req} {h : Str → Prog Resp} {tr : List Ev} {o : Outcome Resp}
    (he : Exec (basicAuth r h) tr o) :
    (tr = [] ∧ (o = .done ⟨401, .empty⟩ ∨ o = .stopped)) ∨
    (r.basic = some (g!"hello", g!"world") ∧ Exec (h g!"hello") tr o) := by
  have h401 : ∀ {tr : List Ev} {o : Outcome Resp}, Exec (Prog.ret (⟨401, .empty⟩ : Resp)) tr o →
      tr = [] ∧ (o = .done ⟨401, .empty⟩ ∨ o = .stopped) := by
    intro tr o h
    cases h with
    | ret => exact ⟨rfl, Or.inl rfl⟩
    | stop => exact ⟨rfl, Or.inr rfl⟩
  unfold basicAuth at he
  split at he
  · exact Or.inl (h401 he)
  · rename_i u p hb
    split at he
    · exact Or.inl (h401 he)
    · split at he
      · exact Or.inl (h401 he)
      · rename_i hup
        obtain ⟨rfl, rfl⟩ : u = g!"hello" ∧ p = g!"world" := by
          constructor
          · exact Decidable.byContradiction fun hn => hup (Or.inl hn)
          · exact Decidable.byContradiction fun hn => hup (Or.inr hn)
        exact Or.inr ⟨hb, he⟩

/-- The answer with tokens. -/
theorem tokenAnswer_tokens {d : Bool} {res : TokenResp} {tr : List Ev} {st : Nat} {b : TokenBody}
    (h : Exec (tokenAnswer d res) tr (.done ⟨st, .tokens b⟩)) :
    ∃ at_ md now, res.goErr = false ∧ res.accessToken = some at_ ∧ at_.metadata = some md ∧ tr = [⟨.now, now⟩] ∧ st = 200 ∧
      b.accessToken = at_.value ∧ b.tokenType = (if d then g!"DPoP" else g!"Bearer") ∧ b.scope = md.scope ∧
      b.refreshToken = (res.refreshToken.map (·.value)).getD [] ∧
      b.expiresIn = (md.expiresAt + 2 ^ 64 - Device.unix now % 2 ^ 64) % 2 ^ 64 := by
  unfold tokenAnswer at h
  split at h
  · obtain ⟨c, hc⟩ := withError_done h
    cases hc
  · rename_i hg
    split at h
    · cases h
    · rename_i at_ ha
      split at h
      · cases h
      · rename_i md hmd
        cases h with
        | step _ _ now tr' _ h' =>
          cases h'
          exact ⟨at_, md, now, by simpa using hg, ha, hmd, rfl, rfl, rfl, rfl, rfl, rfl, rfl⟩

/-- A token request answered with tokens. -/
theorem tokenHandler_tokens {S : Server} {r : Req} {c : Client} {tr : List Ev} {st : Nat} {b : TokenBody}
    (h : Exec (tokenHandler S r (some c)) tr (.done ⟨st, .tokens b⟩)) :
    r.method = g!"POST" ∧ ∃ d t1 t2 cnf res t3, tr = t1 ++ (t2 ++ t3) ∧
      Exec (TokenSvc.token S.E (some (tokenMsg S r c cnf))) t2 (.done res) ∧
      Exec (tokenAnswer d res) t3 (.done ⟨st, .tokens b⟩) ∧
      ((r.dpop = [] ∧ c.dpopBoundAccessTokens = false ∧ cnf = none ∧ d = false ∧ t1 = []) ∨
       (r.dpop ≠ [] ∧ d = true ∧ ∃ jkt, cnf = some ⟨jkt⟩ ∧
         Exec (DPoP.verify S.E { htm := r.method, htu := r.url, proof := r.dpop }) t1 (.done (some jkt)))) := by
  unfold tokenHandler at h
  split at h
  · cases not_err_tokens h
  · rename_i hm
    refine ⟨by simpa using hm, ?_⟩
    dsimp only at h
    split at h
    · cases not_err_tokens h
    · rename_i hb
      split at h
      · rename_i hd
        rcases exec_bind h with ⟨t2, t3, res, rfl, h1, h2⟩ | ⟨e, _⟩ | ⟨e, _⟩
        · exact ⟨false, [], t2, none, res, t3, rfl, h1, h2, Or.inl ⟨hd, by simpa [hd] using hb, rfl, rfl, rfl⟩⟩
        · cases e
        · cases e
      · rename_i hd
        rcases exec_bind h with ⟨t1, t', jkt, rfl, h1, h2⟩ | ⟨e, _⟩ | ⟨e, _⟩
        · cases jkt with
          | none => cases not_err_tokens h2
          | some jkt =>
            rcases exec_bind h2 with ⟨t2, t3, res, rfl, h3, h4⟩ | ⟨e, _⟩ | ⟨e, _⟩
            · exact ⟨true, t1, t2, some ⟨jkt⟩, res, t3, rfl, h3, h4, Or.inr ⟨hd, rfl, jkt, rfl, h1⟩⟩
            · cases e
            · cases e
        · cases e
        · cases e

theorem withError_panic {n : Nat} {e : Option OErr} {tr : List Ev} (h : Exec (withError n e) tr .panicked) : e = none := by
  unfold withError at h
  split at h
  · rfl
  · cases h

/-- Crashes of a sequence. -/
theorem panic_bind {α β : Type} {p : Prog α} {f : α → Prog β} {tr : List Ev} (h : Exec (p >>= f) tr .panicked) :
    Exec p tr .panicked ∨ ∃ t1 t2 a, tr = t1 ++ t2 ∧ Exec p t1 (.done a) ∧ Exec (f a) t2 .panicked := by
  rcases exec_bind h with h | ⟨_, h⟩ | ⟨h, _⟩
  · exact Or.inr h
  · exact Or.inl h
  · cases h

theorem grantOf_not_exchange {r : Req} {g : GrantExchange} : grantOf r ≠ some (.tokenExchange g) := by
  unfold grantOf
  dsimp only
  repeat' split
  all_goals simp

end Verif.Http
