import Verif.Proofs.TokenStoreRevoke
import Verif.Props.Services

/-!
C115: calls on the token store take effect in one step.
-/
namespace Verif.Props
open Verif.Prog Verif.Store Verif.TokenStore

variable {E : Env}

/-- **C115**: however the accesses of any number of goroutines to the two indices and to the
stored objects interleave, what the goroutines see can be seen of the model, in which every
call is one step between its call and its return. Tokens are taken to have different
identifiers and keys; the callers look tokens up by value and revoke what they found. -/
theorem C115_one_step {τ : List Event} {f : Fine} (hr : Run E τ f) (hg : Orderly E τ) : ∃ s thr, Atomic E τ s thr := by
  obtain ⟨_, s, _, a⟩ := simulation hr hg
  exact ⟨s, _, a⟩

/-- A lookup that is called after the revocation of a token has returned finds the token revoked,
whatever else goes on. -/
theorem C115_revoked {τ1 τ2 τ3 τ4 : List Event} {i j : Nat} {iss v : Str} {a : Ans} {t : Token} {f : Fine}
    (hr : Run E (τ1 ++ .inv i (.revoke t.tokenId) :: τ2 ++ .ret i a :: τ3 ++ .inv j (.getVal iss v) :: τ4 ++ [.ret j (.ok (some t))]) f)
    (hg : Orderly E (τ1 ++ .inv i (.revoke t.tokenId) :: τ2 ++ .ret i a :: τ3 ++ .inv j (.getVal iss v) :: τ4 ++ [.ret j (.ok (some t))]))
    (hi : ∀ b, .ret i b ∉ τ2) (hj : ∀ b, .ret j b ∉ τ4) : t.status = .revoked := by
  obtain ⟨f', h, ht⟩ := run_ret hr
  have := reading h hg.init rfl hi hj
  rw [ht] at this
  exact this rfl

/-- Not vacuous: a lookup is called and returns while another revocation of the token is under way. -/
example (iss : Str) (t : Token) : ∃ τ f, Run E (τ ++ [.inv 1 (.revoke t.tokenId)] ++ [.ret 1 (.ok none)] ++
    [.inv 3 (.revoke t.tokenId), .inv 2 (.getVal iss t.value)] ++ [.ret 2 (.ok (some { copy E iss t with status := .revoked }))]) f ∧
    Orderly E (τ ++ [.inv 1 (.revoke t.tokenId)] ++ [.ret 1 (.ok none)] ++
      [.inv 3 (.revoke t.tokenId), .inv 2 (.getVal iss t.value)] ++ [.ret 2 (.ok (some { copy E iss t with status := .revoked }))]) := by
  have r := Run.inv (E := E) 0 (.create iss t) .nil rfl
  have r := r.access 0 (.create0 rfl)
  have r := r.access 0 (.create1 rfl)
  have r := r.ret 0 _ rfl
  have r := r.inv 1 (.getVal iss t.value) rfl
  have r := r.access 1 (.getVal (p := 0) rfl (by simp [TokenStore.put, copy]))
  have r := r.access 1 (.read (t := copy E iss t) rfl rfl)
  have r := r.ret 1 _ rfl
  have r := r.inv 1 (.revoke t.tokenId) rfl
  have r := r.access 1 (.revoke0 (id := t.tokenId) (p := 0) rfl (by simp [TokenStore.put]))
  have r := r.access 1 (.revoke1 (t := copy E iss t) rfl rfl)
  have r := r.access 1 (.revoke2 (t := { copy E iss t with status := .revoked }) rfl rfl)
  have r := r.access 1 (.revoke3 (t := { copy E iss t with status := .revoked }) rfl rfl)
  have r := r.ret 1 _ rfl
  have r := r.inv 3 (.revoke t.tokenId) rfl
  have r := r.inv 2 (.getVal iss t.value) rfl
  have r := r.access 3 (.revoke0 (id := t.tokenId) (p := 0) rfl (by simp [TokenStore.put, copy]))
  have r := r.access 2 (.getVal (p := 0) rfl (by simp [TokenStore.put, copy]))
  have r := r.access 2 (.read (t := { copy E iss t with status := .revoked }) rfl rfl)
  have r := r.ret 2 _ rfl
  refine ⟨[.inv 0 (.create iss t), .ret 0 (.ok none), .inv 1 (.getVal iss t.value), .ret 1 (.ok (some (copy E iss t)))], _,
    by simpa using r, ⟨by simp [ids, created], by simp [keys, created], by simp, ?_⟩⟩
  intro τ1 i id τ2 e
  have hid : id = t.tokenId := by
    have hm : Event.inv i (.revoke id) ∈ τ1 ++ .inv i (.revoke id) :: τ2 := by simp
    rw [← e] at hm
    simp at hm
    rcases hm with h | h <;> exact h.2
  subst hid
  rcases τ1 with _ | ⟨a, _ | ⟨b, _ | ⟨c, _ | ⟨d, τ1⟩⟩⟩⟩
  all_goals simp at e
  exact ⟨1, copy E iss t, by simp [← e.2.2.2.1], rfl⟩

/-- The services look tokens up by value only, and revoke only tokens that they found before. -/
theorem C115_services (r : Req) {tr : List Ev} {o : Outcome Resp} (h : Exec (handle E r) tr o) {tr1 tr2 : List Ev}
    {i id : Str} {x : SRes Unit} (e : tr = tr1 ++ ⟨.tkRevoke i id, x⟩ :: tr2) :
    ∃ i' v t, ⟨.tkGetVal i' v, .ok (some t)⟩ ∈ tr1 ∧ t.tokenId = id := by
  have hc : Calls (fun acc c => ∀ i id, c = .tkRevoke i id →
      ∃ i' v t, ⟨.tkGetVal i' v, .ok (some t)⟩ ∈ acc ∧ t.tokenId = id) (handle E r) [] := by
    cases r
    case token q =>
      refine calls_map (calls_mono (TokenSvc.token_calls E q) fun acc c hj i id hc => ?_)
      obtain ⟨q, v, rt, _, _, _, _, _, _, _, h1, h2, _⟩ := hj.revoke i id hc
      exact ⟨_, _, rt, h1, h2.symm⟩
    case revoke q =>
      refine calls_map (calls_mono (revokeService_calls E q) fun acc c hj i id hc => ?_)
      obtain ⟨q, _, _, x, _, _, _, _, h1, h2⟩ := hj i id hc
      exact ⟨_, _, x, h1, h2⟩
    all_goals
      refine calls_mono (calls_only (only_handle E _) []) fun acc c hj i id hc => ?_
      subst hc
      cases hj
  simpa using calls_sound hc h e i id rfl

/-- Not vacuous: the revocation service revokes. -/
example : ∃ tr o, Exec (handle Demo.env (.revoke (some (Demo.refReq g!"at")))) tr o ∧
    ∃ i id tr1 tr2, tr = tr1 ++ ⟨.tkRevoke i id, .ok ()⟩ :: tr2 := by
  refine ⟨_, _, oracle_exec Demo.answers _, ?_⟩
  exact ⟨_, _, [_, _], [], rfl⟩

/-! ### Lookups by identifier -/

/-- In the model a token can be found by value as soon as it has been seen. -/
theorem atomic_seen {τ : List Event} {s : St} {thr : Nat → ALocal} (h : Atomic E τ s thr) :
    (∀ k t, s.tokVal k = some t → t.value = k) ∧ (∀ id t, s.tokId id = some t → s.tokVal t.value ≠ none) ∧
    (∀ i t, thr i = .done (.ok (some t)) → s.tokVal t.value ≠ none) ∧
    (∀ i t, .ret i (.ok (some t)) ∈ τ → s.tokVal t.value ≠ none) := by
  induction h with
  | nil => simp
  | inv i o _ _ ih =>
    obtain ⟨a, b, c, d⟩ := ih
    refine ⟨a, b, fun j t hj => ?_, fun j t hj => d j t (by simpa using hj)⟩
    simp only [TokenStore.set] at hj
    split at hj
    · cases hj
    · exact c j t hj
  | ret i x _ hx ih =>
    obtain ⟨a, b, c, d⟩ := ih
    refine ⟨a, b, fun j t hj => ?_, fun j t hj => ?_⟩
    · simp only [TokenStore.set] at hj
      split at hj
      · cases hj
      · exact c j t hj
    · simp only [List.mem_append, List.mem_singleton, Event.ret.injEq] at hj
      rcases hj with hj | ⟨rfl, rfl⟩
      · exact d j t hj
      · exact c _ t hx
  | @step τ s thr i o _ ho ih =>
    obtain ⟨a, b, c, d⟩ := ih
    cases o with
    | create iss t =>
      simp only [TokenStore.call, Store.create, upd, TokenStore.set]
      refine ⟨?_, ?_, ?_, ?_⟩ <;> grind
    | get id =>
      simp only [TokenStore.call, TokenStore.set]
      refine ⟨a, b, ?_, d⟩
      intro j t hj
      split at hj
      · cases hc : s.tokId id with
        | none => simp [hc, found] at hj
        | some t' =>
          simp only [hc, found, ALocal.done.injEq, Except.ok.injEq, Option.some.injEq] at hj
          exact hj ▸ b id t' hc
      · exact c j t hj
    | getVal iss v =>
      simp only [TokenStore.call, exec, faulty, TokenStore.set]
      refine ⟨a, b, ?_, d⟩
      intro j t hj
      split at hj
      · cases hc : s.tokVal (tokenKey E iss v) with
        | none => simp [hc, found] at hj
        | some t' =>
          simp only [hc, found, ALocal.done.injEq, Except.ok.injEq, Option.some.injEq] at hj
          subst hj
          rw [a _ _ hc, hc]; simp
      · exact c j t hj
    | revoke id =>
      simp only [TokenStore.call, Store.revoke]
      cases hc : s.tokId id with
      | none =>
        simp only [Except.map, TokenStore.set]
        refine ⟨a, b, ?_, d⟩
        grind
      | some t' =>
        simp only [Except.map, TokenStore.set, upd]
        refine ⟨?_, ?_, ?_, ?_⟩ <;> grind

/-- Before its return a call had its answer. -/
theorem atomic_ret {τ : List Event} {i : Nat} {a : Ans} {s : St} {thr : Nat → ALocal}
    (h : Atomic E (τ ++ [.ret i a]) s thr) : ∃ s' thr', Atomic E τ s' thr' ∧ thr' i = .done a := by
  generalize hw : τ ++ [Event.ret i a] = w at h
  induction h with
  | nil => simp at hw
  | inv => simp at hw
  | ret j b h0 hj _ =>
    simp only [List.append_singleton_inj, Event.ret.injEq] at hw
    obtain ⟨rfl, rfl, rfl⟩ := hw
    exact ⟨_, _, h0, hj⟩
  | step _ _ _ _ ih => exact ih hw

/-- In the model a lookup by value finds what has been seen. -/
theorem atomic_found {τ : List Event} {i j : Nat} {iss v : Str} {t : Token} (hm : .ret j (.ok (some t)) ∈ τ)
    (hk : t.value = tokenKey E iss v) {s : St} {thr : Nat → ALocal}
    (h : Atomic E (τ ++ [.inv i (.getVal iss v)]) s thr) :
    thr i = .called (.getVal iss v) ∨ ∃ t, thr i = .done (.ok (some t)) := by
  generalize hw : τ ++ [Event.inv i (.getVal iss v)] = w at h
  induction h with
  | nil => simp at hw
  | inv j o h0 hj _ =>
    simp only [List.append_singleton_inj, Event.inv.injEq] at hw
    obtain ⟨rfl, rfl, rfl⟩ := hw
    left; simp [TokenStore.set]
  | ret => simp at hw
  | @step τ' s thr j' o h0 ho ih =>
    have hs := (atomic_seen h0).2.2.2 j t (by rw [← hw]; simp [hm])
    simp only [TokenStore.set]
    split
    · rename_i e
      subst e
      rcases ih hw with h1 | ⟨x, h1⟩
      · rw [ho] at h1
        cases h1
        right
        obtain ⟨x, hx⟩ := Option.ne_none_iff_exists'.1 hs
        rw [hk] at hx
        exact ⟨x, by simp [TokenStore.call, exec, faulty, hx, found]⟩
      · rw [ho] at h1; cases h1
    · exact ih hw

/-- Lookups by identifier do not take effect in one step together with lookups by value: one
goroutine can find a token by identifier and after that not find it by value, since `Create`
writes the indices one after the other. The services make no lookups by identifier. -/
theorem C115_get_violated (iss : Str) (t : Token) :
    ∃ τ f, Run E τ f ∧ (ids τ).Nodup ∧ (keys E τ).Nodup ∧ (∀ i id, .inv i (.revoke id) ∉ τ) ∧ ¬ ∃ s thr, Atomic E τ s thr := by
  have r := Run.inv (E := E) 0 (.create iss t) .nil rfl
  have r := r.access 0 (.create0 rfl)
  have r := r.inv 1 (.get t.tokenId) rfl
  have r := r.access 1 (.get (id := t.tokenId) (p := 0) rfl (by simp [TokenStore.put]))
  have r := r.access 1 (.read (t := copy E iss t) rfl rfl)
  have r := r.ret 1 _ rfl
  have r := r.inv 1 (.getVal iss t.value) rfl
  have r := r.access 1 (.getValNone rfl rfl)
  have r := r.ret 1 _ rfl
  refine ⟨_, _, r, by simp [ids, created], by simp [keys, created], by simp, ?_⟩
  rintro ⟨s, thr, h⟩
  obtain ⟨s', thr', h', he⟩ := atomic_ret h
  rcases atomic_found (j := 1) (t := copy E iss t) (by simp) rfl h' with h1 | ⟨x, h1⟩
  · rw [he] at h1; cases h1
  · rw [he] at h1; cases h1

/-- Beyond C115: the assignment of `Revoke` is not synchronised with those who read the object, a
data race. One goroutine can be about to assign the status of a token while another one, which
has found the same object, is about to read it. -/
theorem C115_race (iss : Str) (t : Token) : ∃ τ f i j o p, Run E τ f ∧ Orderly E τ ∧ i ≠ j ∧
    f.thr i = .revoke1 t.tokenId p ∧ f.thr j = .got o p ∧ f.heap[p]? = some (copy E iss t) := by
  have r := Run.inv (E := E) 0 (.create iss t) .nil rfl
  have r := r.access 0 (.create0 rfl)
  have r := r.access 0 (.create1 rfl)
  have r := r.ret 0 _ rfl
  have r := r.inv 1 (.getVal iss t.value) rfl
  have r := r.access 1 (.getVal (p := 0) rfl (by simp [TokenStore.put, copy]))
  have r := r.access 1 (.read (t := copy E iss t) rfl rfl)
  have r := r.ret 1 _ rfl
  have r := r.inv 1 (.revoke t.tokenId) rfl
  have r := r.inv 2 (.getVal iss t.value) rfl
  have r := r.access 2 (.getVal (p := 0) rfl (by simp [TokenStore.put, copy]))
  have r := r.access 1 (.revoke0 (id := t.tokenId) (p := 0) rfl (by simp [TokenStore.put]))
  refine ⟨_, _, 1, 2, _, 0, r, ⟨by simp [ids, created], by simp [keys, created], by simp, ?_⟩, by simp, rfl, rfl, rfl⟩
  intro τ1 i id τ2 e
  simp only [List.cons_append, List.nil_append, List.cons_eq_append_iff, List.nil_eq] at e
  simp at e
  obtain ⟨rfl, ⟨rfl, rfl⟩, _⟩ := e
  exact ⟨1, copy E iss t, by simp, rfl⟩

/-- Not vacuous: the revocation of a token overlaps with a lookup, which sees the assignment
before the revocation has written the indices. -/
example (iss : Str) (t : Token) : ∃ τ f, Run E τ f ∧ Orderly E τ ∧ .ret 2 (.ok (some { copy E iss t with status := .revoked })) ∈ τ ∧
    .ret 1 (.ok none) ∉ τ := by
  have r := Run.inv (E := E) 0 (.create iss t) .nil rfl
  have r := r.access 0 (.create0 rfl)
  have r := r.access 0 (.create1 rfl)
  have r := r.ret 0 _ rfl
  have r := r.inv 1 (.getVal iss t.value) rfl
  have r := r.access 1 (.getVal (p := 0) rfl (by simp [TokenStore.put, copy]))
  have r := r.access 1 (.read (t := copy E iss t) rfl rfl)
  have r := r.ret 1 _ rfl
  have r := r.inv 1 (.revoke t.tokenId) rfl
  have r := r.inv 2 (.getVal iss t.value) rfl
  have r := r.access 2 (.getVal (p := 0) rfl (by simp [TokenStore.put, copy]))
  have r := r.access 1 (.revoke0 (id := t.tokenId) (p := 0) rfl (by simp [TokenStore.put]))
  have r := r.access 1 (.revoke1 (t := copy E iss t) rfl rfl)
  have r := r.access 2 (.read (t := { copy E iss t with status := .revoked }) rfl rfl)
  have r := r.ret 2 _ rfl
  refine ⟨_, _, r, ⟨by simp [ids, created], by simp [keys, created], by simp, ?_⟩, by simp, by simp⟩
  intro τ1 i id τ2 e
  simp only [List.cons_append, List.nil_append, List.cons_eq_append_iff, List.nil_eq] at e
  simp at e
  obtain ⟨rfl, ⟨rfl, rfl⟩, _⟩ := e
  exact ⟨1, copy E iss t, by simp, rfl⟩

end Verif.Props
