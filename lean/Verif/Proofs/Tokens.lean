import Verif.Proofs.Codes

/-! Life of tokens in an arbitrary history. -/
namespace Verif
open Verif.Prog Verif.Store Verif.Spec Verif.TokenSvc
variable {E : Env}

/-- An invariant relating the calls so far to the stores. -/
theorem Linked.inv {I : List Entry → St → Prop} {s : St} (h0 : I [] s)
    (ht : ∀ l st st', I l st → Adv st st' → I l st') {log : List Entry} {f : St}
    (hstep : ∀ l e l', log = l ++ e :: l' → I l e.pre → I (l ++ [e]) (e.post E)) (h : Linked E s log f) : I log f := by
  induction log using List.reverseRecOn generalizing f with
  | nil => exact ht _ _ _ h0 h
  | append_singleton l e ih =>
    obtain ⟨h1, h2⟩ := Linked.split h
    refine ht _ _ _ (hstep l e [] rfl (ih ?_ h1)) h2
    intro l1 e1 l1' hl
    exact hstep l1 e1 (l1' ++ [e]) (by rw [hl]; simp)

/-- The state before the `n`-th call satisfies the invariant with the calls before. -/
theorem run_inv {I : List Entry → St → Prop} {s : St} {ls : List Label} (h0 : I [] s)
    (ht : ∀ l st st', I l st → Adv st st' → I l st')
    (hstep : ∀ l e l', (run E s ls).log = l ++ e :: l' → I l e.pre → I (l ++ [e]) (e.post E)) :
    I (run E s ls).log (run E s ls).st ∧
    ∀ n e, (run E s ls).log[n]? = some e → I ((run E s ls).log.take n) e.pre := by
  refine ⟨Linked.inv h0 ht hstep (linked_run E s ls), ?_⟩
  intro n e he
  refine Linked.inv h0 ht ?_ ((linked_run E s ls).at he).1
  intro l e1 l' hl
  refine hstep l e1 (l' ++ (run E s ls).log.drop n) ?_
  have := List.take_append_drop n (run E s ls).log
  rw [hl] at this
  exact this.symm.trans (by simp)

/-- Where a stored token comes from. -/
def FromCreate (E : Env) (l : List Entry) (x : Token) : Prop :=
  ∃ (n : Nat) (e : Entry) (iss : Str) (t : Token), l[n]? = some e ∧ e.cmd = .tkCreate iss t ∧
    x.value = tokenKey E iss t.value ∧ Keeps t x

theorem FromCreate.mono {l : List Entry} {x : Token} (h : FromCreate E l x) (l' : List Entry) :
    FromCreate E (l ++ l') x := by
  obtain ⟨n, e, iss, t, h1, h2⟩ := h
  refine ⟨n, e, iss, t, ?_, h2⟩
  obtain ⟨hn, _⟩ := List.getElem?_eq_some_iff.1 h1
  rw [List.getElem?_append_left hn]; exact h1

theorem FromCreate.revoked {l : List Entry} {x : Token} (h : FromCreate E l x) :
    FromCreate E l { x with status := .revoked } := by
  obtain ⟨n, e, iss, t, h1, h2, h3, h4, h5⟩ := h
  exact ⟨n, e, iss, t, h1, h2, h3, h4, Or.inr rfl⟩

/-- Every stored token was created, and is stored under its hashed value. -/
def TokInv (E : Env) (l : List Entry) (st : St) : Prop :=
  (∀ k x, st.tokVal k = some x → x.value = k ∧ FromCreate E l x) ∧
  (∀ id x, st.tokId id = some x → x.tokenId = id ∧ FromCreate E l x)

theorem tokInv_step {l : List Entry} {e : Entry} (h : TokInv E l e.pre) : TokInv E (l ++ [e]) (e.post E) := by
  obtain ⟨h1, h2⟩ := h
  have m1 : ∀ k x, e.pre.tokVal k = some x → x.value = k ∧ FromCreate E (l ++ [e]) x :=
    fun k x hx => ⟨(h1 k x hx).1, (h1 k x hx).2.mono _⟩
  have m2 : ∀ k x, e.pre.tokId k = some x → x.tokenId = k ∧ FromCreate E (l ++ [e]) x :=
    fun k x hx => ⟨(h2 k x hx).1, (h2 k x hx).2.mono _⟩
  rcases exec_tokens E e.cmd e.choice e.pre with ⟨a, b⟩ | ⟨i, t, hc, hp⟩ | ⟨i, id, t, hc, hid, hp⟩
  · unfold TokInv Entry.post
    rw [a, b]; exact ⟨m1, m2⟩
  · have hfc : FromCreate E (l ++ [e]) { t with value := tokenKey E i t.value } :=
      ⟨l.length, e, i, t, by simp, hc, rfl, rfl, Or.inl rfl⟩
    unfold TokInv Entry.post
    rw [hp]
    constructor
    · intro k x hx
      simp only [create, upd] at hx
      split at hx
      · rename_i hk; simp at hx; subst hx; exact ⟨hk.symm, hfc⟩
      · exact m1 k x hx
    · intro k x hx
      simp only [create, upd] at hx
      split at hx
      · rename_i hk; simp at hx; subst hx; exact ⟨hk.symm, hfc⟩
      · exact m2 k x hx
  · have hfc := (m2 id t hid).2.revoked
    unfold TokInv Entry.post
    rw [hp]
    simp only [Store.revoke, hid]
    constructor
    · intro k x hx
      simp only [upd] at hx
      split at hx
      · rename_i hk; simp at hx; subst hx; exact ⟨hk.symm, hfc⟩
      · exact m1 k x hx
    · intro k x hx
      simp only [upd] at hx
      split at hx
      · rename_i hk; simp at hx; subst hx; exact ⟨hk.symm, hfc⟩
      · exact m2 k x hx

theorem tokInv_run {s : St} (hE : Empty s) (ls : List Label) :
    TokInv E (run E s ls).log (run E s ls).st ∧
    ∀ n e, (run E s ls).log[n]? = some e → TokInv E ((run E s ls).log.take n) e.pre := by
  refine run_inv ⟨fun k x h => ?_, fun k x h => ?_⟩ ?_ fun l e l' _ h => tokInv_step h
  · rw [hE.tokVal] at h; simp at h
  · rw [hE.tokId] at h; simp at h
  · rintro l st st' h ⟨d, rfl⟩; exact h

theorem Entry.tkGetVal_ok {e : Entry} {i v : Str} {t : Token}
    (h : e.ev E = ⟨.tkGetVal i v, .ok (some t)⟩) : e.pre.tokVal (tokenKey E i v) = some t := by
  obtain ⟨tid, cmd, ⟨f, str⟩, pre⟩ := e
  simp only [Entry.ev, Sigma.mk.injEq] at h
  obtain ⟨rfl, h⟩ := h
  cases f <;> simp [Entry.res, exec, faulty] at h
  cases hp : pre.tokVal (tokenKey E i v) <;> simp [hp, found] at h
  simp [h]

theorem take_getElem? {l : List Entry} {n m : Nat} {e : Entry} (h : (l.take n)[m]? = some e) :
    m < n ∧ l[m]? = some e := by
  rw [List.getElem?_take] at h
  split at h
  · rename_i hm; exact ⟨hm, h⟩
  · simp at h

/-- A token found was created earlier under the same storage key. -/
theorem token_origin {s : St} (hE : Empty s) {ls : List Label} {n : Nat} {e : Entry} {i v : Str} {x : Token}
    (he : (run E s ls).log[n]? = some e) (hev : e.ev E = ⟨.tkGetVal i v, .ok (some x)⟩) :
    ∃ m e0 i0 t, m < n ∧ (run E s ls).log[m]? = some e0 ∧ e0.cmd = .tkCreate i0 t ∧
      tokenKey E i0 t.value = tokenKey E i v ∧ x.value = tokenKey E i v ∧ Keeps t x := by
  obtain ⟨h1, m, e0, i0, t, h2, h3, h4, h5⟩ := ((tokInv_run (E := E) hE ls).2 n e he).1 _ _ (Entry.tkGetVal_ok hev)
  obtain ⟨hm, h2⟩ := take_getElem? h2
  exact ⟨m, e0, i0, t, hm, h2, h3, by rw [← h4, h1], h1, h5⟩

theorem noKeyClash_token {c : Conf} (h : NoKeyClash E c) {m n : Nat} {e e' : Entry} (hm : c.log[m]? = some e)
    (hn : c.log[n]? = some e') {i i' v v' : Str} (h1 : (Kind.token, i, v) ∈ cells e.cmd)
    (h2 : (Kind.token, i', v') ∈ cells e'.cmd) (hk : tokenKey E i v = tokenKey E i' v') : i = i' ∧ v = v' :=
  h e (List.mem_of_getElem? hm) e' (List.mem_of_getElem? hn) .token i v i' v' h1 h2 hk

/-- Without key clash: a token found was created under this issuer and value. -/
theorem token_origin' {s : St} (hE : Empty s) {ls : List Label} (hK : NoKeyClash E (run E s ls)) {n : Nat}
    {e : Entry} {i v : Str} {x : Token}
    (he : (run E s ls).log[n]? = some e) (hev : e.ev E = ⟨.tkGetVal i v, .ok (some x)⟩) :
    ∃ m e0 t, m < n ∧ (run E s ls).log[m]? = some e0 ∧ e0.cmd = .tkCreate i t ∧ t.value = v ∧ Keeps t x := by
  obtain ⟨m, e0, i0, t, h1, h2, h3, h4, _, h6⟩ := token_origin hE he hev
  obtain ⟨rfl, rfl⟩ := noKeyClash_token hK h2 he (by rw [h3]; simp [cells]) (by rw [Entry.cmd_eq hev]; simp [cells]) h4
  exact ⟨m, e0, t, h1, h2, h3, rfl, h6⟩

/-- A clock reading of a request is the time of one of its calls. -/
theorem now_time {s : St} {ls : List Label} {i n now : Nat}
    (h : ⟨.now, now⟩ ∈ callsOf E i ((run E s ls).log.take n)) :
    ∃ (m : Nat) (e : Entry), m < n ∧ (run E s ls).log[m]? = some e ∧ e.tid = i ∧ e.cmd = .now ∧ e.time = now := by
  obtain ⟨m, e, h1, h2, h3⟩ := mem_callsOf_iff.1 h
  obtain ⟨hm, h1⟩ := take_getElem? h1
  refine ⟨m, e, hm, h1, h2, Entry.cmd_eq h3, ?_⟩
  obtain ⟨tid, cmd, ⟨f, str⟩, pre⟩ := e
  simp only [Entry.ev, Sigma.mk.injEq] at h3
  obtain ⟨rfl, h3⟩ := h3
  simp [Entry.res, exec] at h3
  exact h3

/-! ### What is minted -/

theorem seconds_add (now k : Nat) : Device.unix (now + k * 1000000000) = seconds now + k := by
  unfold Device.unix seconds
  exact Nat.add_mul_div_right now k (by decide)

theorem atAt_lifetime {tr : List Ev} {cl : Client} {md : TokenMeta} {cnf : Option Cnf} {t : Token}
    (h : ATAt tr cl md cnf t) : ∃ now : Nat, ⟨.now, now⟩ ∈ tr ∧ LifetimeAt now t := by
  obtain ⟨now, jti, v, _, hm, rfl⟩ := h
  exact ⟨now, hm, _, rfl, rfl, Or.inl ⟨rfl, rfl, seconds_add now 3600⟩⟩

theorem rtAt_lifetime {tr : List Ev} {cl : Client} {md : TokenMeta} {cnf : Option Cnf} {t : Token}
    (h : RTAt tr cl md cnf t) : ∃ now : Nat, ⟨.now, now⟩ ∈ tr ∧ LifetimeAt now t := by
  obtain ⟨now, jti, v, _, hm, rfl⟩ := h
  exact ⟨now, hm, _, rfl, rfl, Or.inr (Or.inl ⟨rfl, rfl, seconds_add now 604800⟩)⟩

theorem mints_lifetime {q : TokenReq} {cl : Client} {tr : List Ev} {iss : Str} {t : Token}
    (h : Mints E q cl tr iss t) : ∃ now : Nat, ⟨.now, now⟩ ∈ tr ∧ LifetimeAt now t := by
  cases h with
  | code g s ar t hg hreg hget hdel hreq hok ho ht =>
    rcases ht with ht | ⟨_, ht⟩
    · exact atAt_lifetime ht
    · exact rtAt_lifetime ht
  | cc t hg hreg hty ht => exact atAt_lifetime ht
  | device dc ref s dreq sub now t hg hreg hget hnow hreq hcl hexp hst hsub ht =>
    rcases ht with ht | ⟨_, ht⟩
    · exact atAt_lifetime ht
    · exact rtAt_lifetime ht
  | refresh v rt md now t hg hreg hget hnow hst hty hmd hexp hown ht =>
    rcases ht with ht | ht
    · exact atAt_lifetime ht
    · exact rtAt_lifetime ht
  | exchange g st md now now2 jti v aud hg hreg hget hnow hnow2 hv hst hty hmd hexp =>
    exact ⟨now2, hnow2, _, rfl, rfl, Or.inr (Or.inr ⟨rfl, rfl, seconds_add now2 60⟩)⟩

theorem Spec.Keeps.metadata {t x : Token} (h : Keeps t x) : x.metadata = t.metadata := by
  rw [← h.rest]

theorem Spec.Keeps.confirmation {t x : Token} (h : Keeps t x) : x.confirmation = t.confirmation := by
  rw [← h.rest]

theorem Spec.Keeps.tokenId {t x : Token} (h : Keeps t x) : x.tokenId = t.tokenId := by
  rw [← h.rest]

theorem Spec.Keeps.tokenType {t x : Token} (h : Keeps t x) : x.tokenType = t.tokenType := by
  rw [← h.rest]

/-- Calls a request made before position `n` are at earlier positions. -/
theorem mem_calls_take {s : St} {ls : List Label} {i n : Nat} {x : Ev}
    (h : x ∈ callsOf E i ((run E s ls).log.take n)) :
    ∃ (m : Nat) (e : Entry), m < n ∧ (run E s ls).log[m]? = some e ∧ e.tid = i ∧ e.ev E = x := by
  obtain ⟨m, e, h1, h2, h3⟩ := mem_callsOf_iff.1 h
  obtain ⟨hm, h1⟩ := take_getElem? h1
  exact ⟨m, e, hm, h1, h2, h3⟩

/-- Without key clash every token is created under the issuer it names. -/
theorem create_issuer {s : St} (hE : Empty s) {ls : List Label} (hK : NoKeyClash E (run E s ls)) {n : Nat}
    {iss : Str} {t : Token} (h : Creates (run E s ls) n iss t) : ∃ md, t.metadata = some md ∧ md.issuer = iss := by
  induction n using Nat.strongRecOn generalizing iss t with
  | ind n ih =>
    obtain ⟨e, he, hc⟩ := h
    obtain ⟨q, c0, cl, hq, hc0, hcl, hm⟩ := entry_tkCreate he hc
    have at_ : ∀ {md : TokenMeta} {cnf}, ATAt (callsOf E e.tid ((run E s ls).log.take n)) cl md cnf t →
        ∃ md', t.metadata = some md' ∧ md'.issuer = md.issuer := by
      rintro md cnf ⟨now, jti, v, _, _, rfl⟩; exact ⟨_, rfl, rfl⟩
    have rt_ : ∀ {md : TokenMeta} {cnf}, RTAt (callsOf E e.tid ((run E s ls).log.take n)) cl md cnf t →
        ∃ md', t.metadata = some md' ∧ md'.issuer = md.issuer := by
      rintro md cnf ⟨now, jti, v, _, _, rfl⟩; exact ⟨_, rfl, rfl⟩
    cases hm with
    | code g s ar _ hg hreg hget hdel hreq hok ho ht =>
      rcases ht with ht | ⟨_, ht⟩
      · exact at_ ht
      · exact rt_ ht
    | cc _ hg hreg hty ht => exact at_ ht
    | device dc ref s dreq sub now _ hg hreg hget hnow hreq hcl hexp hst hsub ht =>
      rcases ht with ht | ⟨_, ht⟩
      · exact at_ ht
      · exact rt_ ht
    | refresh v rt md now _ hg hreg hget hnow hst hty hmd hexp hown ht =>
      rcases ht with ht | ht
      · exact at_ ht
      · exact rt_ ht
    | exchange g st md now now2 jti v aud hg hreg hget hnow hnow2 hv hst hty hmd hexp =>
      obtain ⟨m, e1, hmn, g1, g2, g3⟩ := mem_calls_take hget
      obtain ⟨m0, e0, t0, f1, f2, f3, f4, f5⟩ := token_origin' hE hK g1 g3
      obtain ⟨md0, k1, k2⟩ := ih m0 (by omega) ⟨e0, f2, f3⟩
      rw [f5.metadata, k1] at hmd
      simp at hmd; subst hmd
      exact ⟨_, rfl, k2⟩

/-! ### Revocation -/

/-- Both indices agree. -/
def Synced (st : St) : Prop := ∀ k x, st.tokVal k = some x → st.tokId x.tokenId = some x

theorem synced_run {s : St} (hE : Empty s) {ls : List Label} (hF : FreshTokens (run E s ls)) :
    ∀ (n : Nat) (e : Entry), (run E s ls).log[n]? = some e → Synced e.pre := by
  intro n e he
  refine ((run_inv (E := E) (s := s) (ls := ls) (I := fun l st => TokInv E l st ∧ Synced st) ⟨⟨?_, ?_⟩, ?_⟩ ?_ ?_).2 n e he).2
  · intro k x h; rw [hE.tokVal] at h; simp at h
  · intro k x h; rw [hE.tokId] at h; simp at h
  · intro k x h; rw [hE.tokVal] at h; simp at h
  · rintro l st st' h ⟨d, rfl⟩; exact h
  · rintro l e l' hl ⟨hinv, hsy⟩
    refine ⟨tokInv_step hinv, ?_⟩
    rcases exec_tokens E e.cmd e.choice e.pre with ⟨a, b⟩ | ⟨i, t, hc, hp⟩ | ⟨i, id, t, hc, hid, hp⟩
    · unfold Synced Entry.post
      rw [a, b]; exact hsy
    · unfold Synced Entry.post
      rw [hp]
      intro k x hx
      simp only [create, upd] at hx ⊢
      split at hx
      · simp at hx; subst hx; simp
      · obtain ⟨hv, m, e0, i0, t0, h1, h2, h3, h4⟩ := hinv.1 k x hx
        have hne : x.tokenId ≠ t.tokenId := by
          intro heq
          have hm : m < l.length := (List.getElem?_eq_some_iff.1 h1).1
          have := hF.ids m l.length i0 i t0 t ⟨e0, by rw [hl, List.getElem?_append_left hm]; exact h1, h2⟩
            ⟨e, by rw [hl]; simp, hc⟩ (by rw [← h4.tokenId, heq])
          omega
        rw [if_neg hne]
        exact hsy k x hx
    · unfold Synced Entry.post
      rw [hp]
      simp only [Store.revoke, hid]
      intro k x hx
      simp only [upd] at hx ⊢
      split at hx
      · simp at hx; subst hx; simp
      · rename_i hk
        by_cases hxid : x.tokenId = t.tokenId
        · exfalso
          have h1 := hsy k x hx
          have h2 := (hinv.2 id t hid).1
          rw [hxid, h2, hid] at h1
          simp at h1; subst h1
          exact hk (hinv.1 k t hx).1.symm
        · rw [if_neg hxid]; exact hsy k x hx

/-- A creation and all tokens ever found under its key. -/
theorem found_unique {s : St} (hE : Empty s) {ls : List Label} (hK : NoKeyClash E (run E s ls))
    (hF : FreshTokens (run E s ls)) {m : Nat} {i : Str} {t : Token} (hc : Creates (run E s ls) m i t)
    {n : Nat} {e : Entry} (he : (run E s ls).log[n]? = some e) {x : Token}
    (hx : e.pre.tokVal (tokenKey E i t.value) = some x) : m < n ∧ Keeps t x := by
  obtain ⟨h1, m0, e0, i0, t0, h2, h3, h4, h5⟩ := ((tokInv_run (E := E) hE ls).2 n e he).1 _ _ hx
  obtain ⟨hm, h2⟩ := take_getElem? h2
  obtain ⟨ec, hc1, hc2⟩ := hc
  have hk : tokenKey E i0 t0.value = tokenKey E i t.value := by rw [← h4, h1]
  obtain ⟨rfl, hv⟩ := noKeyClash_token hK h2 hc1 (by rw [h3]; simp [cells]) (by rw [hc2]; simp [cells]) hk
  have := hF.values m0 m i0 t0 t ⟨e0, h2, h3⟩ ⟨ec, hc1, hc2⟩ hv
  subst this
  rw [h2] at hc1; cases hc1
  rw [h3] at hc2; cases hc2
  exact ⟨hm, h5⟩

theorem Entry.tkRevoke_ok {e : Entry} {i id : Str} (h : e.ev E = ⟨.tkRevoke i id, .ok ()⟩) :
    ∃ t, e.pre.tokId id = some t ∧ e.post E = (Store.revoke id e.pre).2 := by
  obtain ⟨tid, cmd, ⟨f, str⟩, pre⟩ := e
  simp only [Entry.ev, Sigma.mk.injEq] at h
  obtain ⟨rfl, h⟩ := h
  cases f <;> simp [Entry.res, exec, faulty] at h
  cases hp : pre.tokId id with
  | none => simp [Store.revoke, hp] at h
  | some t => exact ⟨t, rfl, by simp [Entry.post, exec, faulty]⟩

theorem tokVal_timeless (P : (Str → Option Token) → Prop) : Timeless (fun st => P st.tokVal) := by
  rintro x y ⟨d, rfl⟩; exact Iff.rfl

/-- After an acknowledged revocation of a token that was found, every later lookup
of its value finds it revoked. -/
theorem revoked_forever {s : St} (hE : Empty s) {ls : List Label} (hK : NoKeyClash E (run E s ls))
    (hF : FreshTokens (run E s ls)) {n d : Nat} {e ed : Entry} {i v i' : Str} {x : Token}
    (hn : (run E s ls).log[n]? = some e) (hev : e.ev E = ⟨.tkGetVal i v, .ok (some x)⟩) (hnd : n < d)
    (hd : (run E s ls).log[d]? = some ed) (hrev : ed.ev E = ⟨.tkRevoke i' x.tokenId, .ok ()⟩) :
    (∀ (n' : Nat) (e' : Entry), (run E s ls).log[n']? = some e' → d < n' →
      ∃ y, e'.pre.tokVal (tokenKey E i v) = some y ∧ y.status = .revoked) ∧
    ∃ y, (run E s ls).st.tokVal (tokenKey E i v) = some y ∧ y.status = .revoked := by
  obtain ⟨m, e0, t, h1, h2, h3, rfl, h5⟩ := token_origin' hE hK hn hev
  have hcr : Creates (run E s ls) m i t := ⟨e0, h2, h3⟩
  -- the entry stays until the revocation
  have hsome : (ed.pre.tokVal (tokenKey E i t.value)).isSome = true := by
    refine (linked_run E s ls).keepBetween (P := fun st => (st.tokVal (tokenKey E i t.value)).isSome = true)
      (tokVal_timeless (fun tv => (tv (tokenKey E i t.value)).isSome = true)) hn hd hnd ?_ ?_
    · have hp := Entry.tkGetVal_ok hev
      rcases exec_tokens E e.cmd e.choice e.pre with ⟨a, b⟩ | ⟨j, t', hc, hp'⟩ | ⟨j, id, t', hc, hid, hp'⟩
      · unfold Entry.post; rw [b, hp]; rfl
      · rw [Entry.cmd_eq hev] at hc; simp at hc
      · rw [Entry.cmd_eq hev] at hc; simp at hc
    · intro k e1 _ _ _ hp
      rcases exec_tokens E e1.cmd e1.choice e1.pre with ⟨a, b⟩ | ⟨j, t', hc, hp'⟩ | ⟨j, id, t', hc, hid, hp'⟩
      · unfold Entry.post; rw [b]; exact hp
      · unfold Entry.post; rw [hp']; simp only [create, upd]; split
        · rfl
        · exact hp
      · unfold Entry.post; rw [hp']; simp only [Store.revoke, hid, upd]; split
        · rfl
        · exact hp
  obtain ⟨x', hx'⟩ := Option.isSome_iff_exists.1 hsome
  have hk := (found_unique hE hK hF hcr hd hx').2
  have hid : ed.pre.tokId x.tokenId = some x' := by
    have := synced_run hE hF d ed hd _ _ hx'
    rwa [hk.tokenId, ← h5.tokenId] at this
  have hval : x'.value = tokenKey E i t.value := (((tokInv_run (E := E) hE ls).2 d ed hd).1 _ _ hx').1
  have hpost : ∃ y, (ed.post E).tokVal (tokenKey E i t.value) = some y ∧ y.status = .revoked := by
    obtain ⟨_, _, hp⟩ := Entry.tkRevoke_ok hrev
    rw [hp]
    simp only [Store.revoke, hid, hval, upd, if_true]
    exact ⟨_, rfl, rfl⟩
  have hstep : ∀ (k : Nat) (e1 : Entry), d < k → (run E s ls).log[k]? = some e1 →
      (∃ y, e1.pre.tokVal (tokenKey E i t.value) = some y ∧ y.status = .revoked) →
      ∃ y, (e1.post E).tokVal (tokenKey E i t.value) = some y ∧ y.status = .revoked := by
    rintro k e1 hk1 hk3 ⟨y, hy1, hy2⟩
    rcases exec_tokens E e1.cmd e1.choice e1.pre with ⟨a, b⟩ | ⟨j, t', hc, hp'⟩ | ⟨j, id, t', hc, hid, hp'⟩
    · unfold Entry.post; rw [b]; exact ⟨y, hy1, hy2⟩
    · unfold Entry.post; rw [hp']; simp only [create, upd]; split
      · rename_i hkey
        exfalso
        obtain ⟨rfl, hv⟩ := noKeyClash_token hK hk3 h2 (by rw [hc]; simp [cells]) (by rw [h3]; simp [cells]) hkey.symm
        have := hF.values k m j t' t ⟨e1, hk3, hc⟩ hcr hv
        omega
      · exact ⟨y, hy1, hy2⟩
    · unfold Entry.post; rw [hp']; simp only [Store.revoke, hid, upd]; split
      · exact ⟨_, rfl, rfl⟩
      · exact ⟨y, hy1, hy2⟩
  have hT := tokVal_timeless (fun tv => ∃ y, tv (tokenKey E i t.value) = some y ∧ y.status = .revoked)
  refine ⟨fun n' e' hn' hdn => ?_, ?_⟩
  · exact (linked_run E s ls).keepBetween
      (P := fun st => ∃ y, st.tokVal (tokenKey E i t.value) = some y ∧ y.status = .revoked) hT hd hn' hdn hpost
      fun k e1 hk _ hk3 => hstep k e1 hk hk3
  · exact (linked_run E s ls).keepEnd
      (P := fun st => ∃ y, st.tokVal (tokenKey E i t.value) = some y ∧ y.status = .revoked) hT hd hpost
      fun k e1 hk hk3 => hstep k e1 hk hk3

/-! ### Introspection and revocation requests -/

open Verif.TokenSvc in
theorem introspect_looks (E : Env) (q : TokenRefReq) :
    Done (fun acc a => a.goErr = true ∨ ∃ r, ⟨.tkGetVal q.issuer q.token, r⟩ ∈ acc ∧
      (∀ y, r = .ok (some y) → a.token = some y) ∧ (r = .error .other → a.goErr = true) ∧
      (r = .error .notFound → a.token = some { issuer := q.issuer, value := q.token, status := .unknown }))
      (introspect E (some q)) [] := by
  unfold introspect
  simp only
  split
  · simp [Done]
  split
  · simp [Done]
  split
  · simp [Done]
  split
  · simp [Done]
  simp only [Prog.call, bind_op, bind_ret, pure_eq, Done]
  rintro ((_ | _) | cl)
  · exact Or.inl rfl
  · exact Or.inl rfl
  simp only [Done]
  rintro ((_ | _) | x) <;> simp only [Done]
  · exact Or.inr ⟨.error .notFound, by simp, by simp, by simp, by simp⟩
  · exact Or.inl trivial
  · exact Or.inr ⟨.ok x, by simp, by simp, by simp, by simp⟩

open Verif.TokenSvc in
theorem revoke_calls (E : Env) (q : TokenRefReq) :
    Done (fun acc a => a.goErr = false → ∃ c cl x, q.client = some c ∧ acc = [⟨.clientsGet c.clientId, .ok cl⟩,
      ⟨.tkGetVal q.issuer q.token, .ok (some x)⟩, ⟨.tkRevoke q.issuer x.tokenId, .ok ()⟩])
      (TokenSvc.revoke E (some q)) [] := by
  unfold TokenSvc.revoke
  simp only
  split
  · simp [Done]
  split
  · simp [Done]
  split
  · simp [Done]
  rename_i c hc
  split
  · simp [Done]
  simp only [Prog.call, bind_op, bind_ret, pure_eq, Done]
  rintro ((_ | _) | cl)
  · simp [Done]
  · simp [Done]
  simp only [Done]
  rintro (_ | (_ | x))
  · simp [Done]
  · simp [Done]
  simp only [Done]
  rintro (_ | _)
  · simp [Done]
  · exact fun _ => ⟨c, cl, x, hc, rfl⟩

/-- Two calls of one request in order. -/
theorem calls_ordered {i : Nat} {log : List Entry} {l1 l2 : List Ev} {x y : Ev}
    (h : callsOf E i log = l1 ++ x :: l2) (hy : y ∈ l2) :
    ∃ (n : Nat) (e : Entry) (d : Nat) (ed : Entry), n < d ∧ log[n]? = some e ∧ e.tid = i ∧ e.ev E = x ∧
      log[d]? = some ed ∧ ed.tid = i ∧ ed.ev E = y := by
  obtain ⟨b, hb, hby⟩ := List.getElem_of_mem hy
  have i1 : (callsOf E i log)[l1.length]? = some x := by rw [h]; simp
  have i2 : (callsOf E i log)[l1.length + (b + 1)]? = some y := by
    rw [h, List.getElem?_append_right (by omega)]
    simp [List.getElem?_eq_getElem hb, hby]
  obtain ⟨n, e, n1, n2, n3, n4⟩ := callsOf_index i1
  obtain ⟨d, ed, d1, d2, d3, d4⟩ := callsOf_index i2
  exact ⟨n, e, d, ed, callsOf_lt n4 d4 (by omega), n1, n2, n3, d1, d2, d3⟩

end Verif
