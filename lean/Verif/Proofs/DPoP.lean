import Verif.Proofs.Tokens

/-! The DPoP verifier: what an accepted proof went through. -/
namespace Verif
open Verif.Prog Verif.Spec Verif.DPoP Verif.Store
variable {E : Env}

/-- Everything that was checked when a proof is accepted. -/
structure Accepted (E : Env) (req : VerifyReq) (thumb : Str) (tr : List Ev) (key : Str) (claims : ProofClaims)
    (now1 now2 : Nat) : Prop where
  trace : tr = [⟨.now, now1⟩, ⟨.now, now2⟩, ⟨.dpopExists (proofId E claims.jti), .ok false⟩,
    ⟨.dpopRegister (proofId E claims.jti), .ok ()⟩]
  parsed : ∃ p, E.parseProof req.proof = some p ∧ open_ p = some (key, claims)
  htm : claims.htm = req.htm
  method : Go.toUpper req.htm ∈ methods
  htu : E.urlString req.htu = some claims.htu
  fresh1 : tooOld now1 claims = false
  fresh2 : tooNew now2 claims = false
  finished : finish E req key claims = some thumb

theorem fresh_done {Φ : List Ev → Bool → Prop} {c : ProofClaims} {acc : List Ev}
    (h : ∀ n1, tooOld n1 c = true → Φ (acc ++ [⟨.now, n1⟩]) false)
    (h2 : ∀ n1 n2, tooOld n1 c = false → Φ (acc ++ [⟨.now, n1⟩] ++ [⟨.now, n2⟩]) (!tooNew n2 c)) :
    Done Φ (DPoP.fresh c) acc := by
  unfold DPoP.fresh
  simp only [Prog.call, bind_op, bind_ret, pure_eq, Done]
  intro n1
  split
  · exact h n1 ‹_›
  · intro n2
    exact h2 n1 n2 (by simpa using ‹¬ tooOld n1 c = true›)

theorem verify_done (E : Env) (req : VerifyReq) :
    Done (fun tr a => ∀ thumb, a = some thumb → ∃ key claims now1 now2, Accepted E req thumb tr key claims now1 now2)
      (verify E req) [] := by
  unfold verify
  split
  · simp [Done]
  cases hu : E.urlString req.htu with
  | none => simp [Done]
  | some u =>
    simp only
    split
    · simp [Done]
    rename_i hm
    cases hp : E.parseProof req.proof with
    | none => simp [Done]
    | some p =>
      simp only
      cases ho : open_ p with
      | none => simp [Done]
      | some kc =>
        obtain ⟨key, claims⟩ := kc
        simp only
        split
        · simp [Done]
        split
        · simp [Done]
        rename_i hhtm
        split
        · simp [Done]
        rename_i hhtu
        rw [done_bind]
        refine fresh_done ?_ ?_
        · intro n1 _; simp [Done, pure_eq]
        · intro n1 n2 h1
          cases h2 : tooNew n2 claims with
          | true => simp [Done, pure_eq]
          | false =>
            simp only [Bool.not_false, if_true]
            unfold replay
            simp only [Prog.call, bind_op, bind_ret, pure_eq, Done]
            rintro (_ | (_ | _))
            · simp [Done]
            · simp only [Done]
              rintro (_ | ⟨⟩)
              · simp [Done]
              · intro thumb ht
                exact ⟨key, claims, n1, n2, ⟨by simp, ⟨p, hp, ho⟩, by simpa using hhtm, by simpa using hm,
                  by rw [hu]; simpa using (by simpa using hhtu : claims.htu = u).symm, h1, h2, ht⟩⟩
            · simp [Done]

theorem accepted_exec {req : VerifyReq} {tr : List Ev} {thumb : Str}
    (h : Exec (verify E req) tr (.done (some thumb))) :
    ∃ key claims now1 now2, Accepted E req thumb tr key claims now1 now2 := by
  have := done_sound (verify_done E req) h
  exact this thumb rfl

theorem open_some {p : Proof} {key : Str} {claims : ProofClaims} (h : open_ p = some (key, claims)) :
    p.typ = some g!"dpop+jwt" ∧ p.jwk = some key ∧ p.claims key = some claims := by
  unfold open_ at h
  split at h
  · rename_i ht
    cases hj : p.jwk with
    | none => rw [hj] at h; simp at h
    | some k =>
      rw [hj] at h
      simp only [Option.map_eq_some_iff, Prod.mk.injEq] at h
      obtain ⟨c, hc, rfl, rfl⟩ := h
      exact ⟨ht, rfl, hc⟩
  · simp at h

theorem finish_some {req : VerifyReq} {key thumb : Str} {claims : ProofClaims}
    (h : finish E req key claims = some thumb) :
    E.thumbprint key = some thumb ∧
    ∀ tv, req.tokenValue = some tv → claims.ath = some (Go.b64 (E.sha256 tv)) ∧
      ∀ jkt, req.tokenConfirmation = some jkt → thumb = jkt := by
  unfold finish at h
  cases hk : E.thumbprint key with
  | none => rw [hk] at h; simp at h
  | some th =>
    rw [hk] at h
    simp only at h
    cases htv : req.tokenValue with
    | none => rw [htv] at h; simp at h; subst h; simp
    | some tv =>
      rw [htv] at h
      simp only at h
      cases ha : claims.ath with
      | none => rw [ha] at h; simp at h
      | some ath =>
        rw [ha] at h
        simp only at h
        split at h
        · simp at h
        · rename_i hath
          cases hc : req.tokenConfirmation with
          | none =>
            rw [hc] at h; simp at h; subst h
            simp only [Option.some.injEq]
            refine ⟨trivial, ?_⟩
            rintro tv' rfl
            exact ⟨by simpa using hath, by simp⟩
          | some jkt =>
            rw [hc] at h
            simp only at h
            split at h
            · simp at h
            · rename_i hj
              simp at h; subst h
              simp only [Option.some.injEq]
              refine ⟨trivial, ?_⟩
              rintro tv' rfl
              exact ⟨by simpa using hath, by rintro _ rfl; simpa using hj⟩

theorem not_tooOld {now : Nat} {c : ProofClaims} (h : tooOld now c = false) : seconds now ≤ c.iat + 15 := by
  unfold tooOld unixMinus threshold at h
  simp only [decide_eq_false_iff_not, Nat.not_lt] at h
  unfold seconds
  split at h <;> omega

theorem not_tooNew {now : Nat} {c : ProofClaims} (h : tooNew now c = false) : c.iat ≤ seconds now + 15 := by
  unfold tooNew DPoP.unix threshold at h
  simp only [decide_eq_false_iff_not, Nat.not_lt] at h
  unfold seconds
  omega

/-- Freshness in the direction used against replays: a clock reading that finds the
proof fresh is at most 30 seconds (rounded) after any later bound on its date. -/
theorem tooOld_of {now t : Nat} {c : ProofClaims} (hc : c.iat ≤ seconds t + 15) (h : t + 31 * second ≤ now) :
    tooOld now c = true := by
  unfold tooOld unixMinus threshold
  simp only [decide_eq_true_eq]
  unfold seconds at hc
  unfold second at h
  split <;> omega

/-! ### The proof cache -/

theorem Entry.dpopExists_ok {e : Entry} {id : Str} {b : Bool} (h : e.ev E = ⟨.dpopExists id, .ok b⟩) :
    b = (match e.pre.proofs id with | some x => decide (e.time ≤ x) | none => false) := by
  obtain ⟨tid, cmd, ⟨f, str⟩, pre⟩ := e
  simp only [Entry.ev, Sigma.mk.injEq] at h
  obtain ⟨rfl, h⟩ := h
  cases f <;> simp [Entry.res, exec, faulty] at h
  rw [← h]; rfl

theorem Entry.dpopRegister_ok {e : Entry} {id : Str} (h : e.ev E = ⟨.dpopRegister id, .ok ()⟩) :
    (e.post E).proofs id = some (e.time + 60 * second) := by
  obtain ⟨tid, cmd, ⟨f, str⟩, pre⟩ := e
  simp only [Entry.ev, Sigma.mk.injEq] at h
  obtain ⟨rfl, h⟩ := h
  cases f <;> simp [Entry.res, exec, faulty] at h
  simp [Entry.post, exec, faulty, upd, Entry.time]

/-- After a registration, the cache holds an entry at least as long-lived. -/
theorem proof_remembered {s : St} {ls : List Label} {m n : Nat} {e e' : Entry} {id : Str}
    (hm : (run E s ls).log[m]? = some e) (hn : (run E s ls).log[n]? = some e') (hmn : m < n)
    (he : e.ev E = ⟨.dpopRegister id, .ok ()⟩) :
    ∃ x, e'.pre.proofs id = some x ∧ e.time + 60 * second ≤ x := by
  have hT : Timeless (fun st : St => ∃ x, st.proofs id = some x ∧ e.time + 60 * second ≤ x) := by
    rintro a b ⟨d, rfl⟩; exact Iff.rfl
  refine (linked_run E s ls).keepBetween hT hm hn hmn ⟨_, Entry.dpopRegister_ok he, Nat.le_refl _⟩ ?_
  rintro k e1 hk _ hk1 ⟨x, hx1, hx2⟩
  rcases exec_proofs E e1.cmd e1.choice e1.pre with h | ⟨id', hc, h⟩
  · exact ⟨x, by unfold Entry.post; rw [h]; exact hx1, hx2⟩
  · unfold Entry.post
    rw [h]
    by_cases hid : id = id'
    · subst hid
      refine ⟨_, by simp [upd]; rfl, ?_⟩
      have := (linked_run E s ls).time_le hm hk1 (by omega)
      unfold Entry.time at this ⊢
      omega
    · exact ⟨x, by simp [upd, hid]; exact hx1, hx2⟩

/-- Where an accepted verification read the clock, consulted and filled the cache. -/
theorem accepted_calls {s : St} {ls : List Label} {i : Nat} {req : VerifyReq} {thumb key : Str} {claims : ProofClaims}
    {now1 now2 : Nat} (h : Accepted E req thumb (callsOf E i (run E s ls).log) key claims now1 now2) :
    ∃ (n1 n2 n3 n4 : Nat) (e1 e2 e3 e4 : Entry), n1 < n2 ∧ n2 < n3 ∧ n3 < n4 ∧
      (run E s ls).log[n1]? = some e1 ∧ e1.tid = i ∧ e1.cmd = .now ∧ e1.time = now1 ∧
      (run E s ls).log[n2]? = some e2 ∧ e2.tid = i ∧ e2.cmd = .now ∧ e2.time = now2 ∧
      (run E s ls).log[n3]? = some e3 ∧ e3.tid = i ∧ e3.ev E = ⟨.dpopExists (proofId E claims.jti), .ok false⟩ ∧
      (run E s ls).log[n4]? = some e4 ∧ e4.tid = i ∧ e4.ev E = ⟨.dpopRegister (proofId E claims.jti), .ok ()⟩ := by
  have hx : ∀ a x, [⟨.now, now1⟩, ⟨.now, now2⟩, ⟨.dpopExists (proofId E claims.jti), .ok false⟩,
      ⟨.dpopRegister (proofId E claims.jti), .ok ()⟩][a]? = some x →
      ∃ (n : Nat) (e : Entry), (run E s ls).log[n]? = some e ∧ e.tid = i ∧ e.ev E = x ∧
        (callsOf E i ((run E s ls).log.take n)).length = a := by
    intro a x ha
    rw [← h.trace] at ha
    exact callsOf_index ha
  obtain ⟨n1, e1, a1, a2, a3, a4⟩ := hx 0 _ rfl
  obtain ⟨n2, e2, b1, b2, b3, b4⟩ := hx 1 _ rfl
  obtain ⟨n3, e3, c1, c2, c3, c4⟩ := hx 2 _ rfl
  obtain ⟨n4, e4, d1, d2, d3, d4⟩ := hx 3 _ rfl
  have ht : ∀ {e : Entry} {now : Nat}, e.ev E = ⟨.now, now⟩ → e.cmd = .now ∧ e.time = now := by
    rintro ⟨tid, cmd, ⟨f, str⟩, pre⟩ now hev
    simp only [Entry.ev, Sigma.mk.injEq] at hev
    obtain ⟨rfl, hev⟩ := hev
    exact ⟨rfl, eq_of_heq hev⟩
  exact ⟨n1, n2, n3, n4, e1, e2, e3, e4, callsOf_lt a4 b4 (by omega), callsOf_lt b4 c4 (by omega),
    callsOf_lt c4 d4 (by omega), a1, a2, (ht a3).1, (ht a3).2, b1, b2, (ht b3).1, (ht b3).2, c1, c2, c3, d1, d2, d3⟩

/-- A verification that consults the cache after another one with the same proof
has filled it, and does so within 29 seconds of reading the clock, refuses. -/
theorem no_replay_after {s : St} {ls : List Label} {i j : Nat} {req req' : VerifyReq} {thumb thumb' key key' : Str}
    {claims : ProofClaims} {now1 now2 now1' now2' : Nat}
    (h : Accepted E req thumb (callsOf E i (run E s ls).log) key claims now1 now2)
    (h' : Accepted E req' thumb' (callsOf E j (run E s ls).log) key' claims now1' now2')
    (hp : ∀ (n m : Nat) (e e' : Entry), (run E s ls).log[n]? = some e → (run E s ls).log[m]? = some e' → n < m →
      e.tid = j → e'.tid = j → e.cmd = .now → (∃ id, e'.cmd = .dpopExists id) → e'.time ≤ e.time + 29 * second) :
    ∃ (a b : Nat) (ea eb : Entry) (id : Str), a < b ∧ (run E s ls).log[a]? = some ea ∧ ea.tid = j ∧
      ea.cmd = .dpopExists id ∧
      (run E s ls).log[b]? = some eb ∧ eb.tid = i ∧ eb.cmd = .dpopRegister id := by
  obtain ⟨n1, n2, n3, n4, e1, e2, e3, e4, l1, l2, l3, a1, a2, a3, a4, b1, b2, b3, b4, c1, c2, c3, d1, d2, d3⟩ :=
    accepted_calls h
  obtain ⟨n1', n2', n3', n4', e1', e2', e3', e4', l1', l2', l3', a1', a2', a3', a4', b1', b2', b3', b4', c1', c2', c3',
    d1', d2', d3'⟩ := accepted_calls h'
  refine ⟨n3', n4, e3', e4, _, ?_, c1', c2', Entry.cmd_eq c3', d1, d2, Entry.cmd_eq d3⟩
  rcases Nat.lt_trichotomy n3' n4 with hlt | heq | hgt
  · exact hlt
  · subst heq
    rw [c1'] at d1; cases d1
    have := (Entry.cmd_eq c3').symm.trans (Entry.cmd_eq d3)
    simp at this
  · exfalso
    obtain ⟨x, hx1, hx2⟩ := proof_remembered d1 c1' hgt d3
    have hf := Entry.dpopExists_ok c3'
    rw [hx1] at hf
    simp only at hf
    have hf' := of_decide_eq_false hf.symm
    have hprompt := hp n1' n3' e1' e3' a1' c1' (by omega) a2' c2' a3' ⟨_, Entry.cmd_eq c3'⟩
    have h2 := (linked_run E s ls).time_le b1 d1 (by omega)
    have hold := tooOld_of (now := now1') (not_tooNew h.fresh2) (by unfold second at *; omega)
    rw [h'.fresh1] at hold
    simp at hold

end Verif
