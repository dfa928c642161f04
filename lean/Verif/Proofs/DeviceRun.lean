import Verif.Proofs.Tokens
import Verif.Proofs.Device

/-! Device sessions over histories. -/
namespace Verif
open Verif.Prog Verif.Spec Verif.Store
variable {E : Env}

theorem exec_heap (E : Env) (c : Cmd) (ch : Choice) (s : St) :
    (exec E c ch s).2.heap = s.heap ∨
    (∃ i uc d, c = .dsReg i uc d ∧ (exec E c ch s).2.heap = s.heap ++ [d]) ∨
    (∃ ref d, c = .dsAssign ref d ∧ (exec E c ch s).2.heap = s.heap.set ref d) := by
  rcases ch with ⟨f, str⟩
  cases c <;> cases f <;> simp [exec, faulty, gen, create, Store.revoke] <;> split <;> simp

/-- A session is changed only by an approval of the pending, unexpired session
found under the user code. -/
def Approves (req : Option DeviceValidationReq) (acc : List Ev) (c : Cmd) : Prop :=
  ∀ ref d, c = .dsAssign ref d → ∃ q sess now, req = some q ∧
    acc = [⟨.dsGetUser q.issuer q.userCode, .ok (some (ref, sess))⟩, ⟨.now, now⟩] ∧
    sess.status = .authorizationPending ∧ seconds now ≤ sess.expiresAt ∧
    d = { sess with subject := some q.subject, status := .validated }

theorem deviceValidate_calls (req : Option DeviceValidationReq) : Calls (Approves req) (Device.validate req) [] := by
  unfold Device.validate
  cases req with
  | none => trivial
  | some q =>
    simp only
    split; · trivial
    split; · trivial
    split; · trivial
    simp only [Prog.call, bind_op, bind_ret, pure_eq, Calls]
    refine ⟨by intro ref d h; simp at h, ?_⟩
    rintro ((_ | _) | (_ | ⟨ref, s⟩))
    · trivial
    · trivial
    · trivial
    · simp only
      split; · trivial
      split; · trivial
      simp only [Calls]
      refine ⟨by intro ref d h; simp at h, ?_⟩
      intro now
      split; · trivial
      split; · trivial
      rename_i hexp hst
      simp only [Calls]
      refine ⟨?_, ?_⟩
      · intro ref' d h
        simp only [Cmd.dsAssign.injEq] at h
        obtain ⟨rfl, rfl⟩ := h
        exact ⟨q, s, now, rfl, rfl, by simpa using hst, by simpa [Device.unix, seconds] using hexp, rfl⟩
      · intro _
        refine ⟨by intro ref d h; simp at h, ?_⟩
        rintro (_ | u)
        · trivial
        · refine ⟨by intro ref d h; simp at h, ?_⟩
          rintro (_ | u) <;> trivial

/-- The calls of a successful approval. -/
theorem deviceValidate_done (q : DeviceValidationReq) :
    Done (fun acc a => a.goErr = false → ∃ ref sess now, sess.status = .authorizationPending ∧
      seconds now ≤ sess.expiresAt ∧
      acc = [⟨.dsGetUser q.issuer q.userCode, .ok (some (ref, sess))⟩, ⟨.now, now⟩,
        ⟨.dsAssign ref { sess with subject := some q.subject, status := .validated }, ()⟩,
        ⟨.dsValidate q.issuer q.userCode ref { sess with subject := some q.subject, status := .validated }, .ok ()⟩,
        ⟨.dsDel q.issuer q.userCode, .ok ()⟩]) (Device.validate (some q)) [] := by
  unfold Device.validate
  have hf : ∀ c, (Device.failV c).goErr = false → False := by intro c; simp [Device.failV]
  simp only
  split; · exact fun h => (hf _ h).elim
  split; · exact fun h => (hf _ h).elim
  split; · exact fun h => (hf _ h).elim
  simp only [Prog.call, bind_op, bind_ret, pure_eq, Done]
  rintro ((_ | _) | (_ | ⟨ref, s⟩))
  · exact fun h => (hf _ h).elim
  · exact fun h => (hf _ h).elim
  · exact fun h => (hf _ h).elim
  · simp only
    split; · exact fun h => (hf _ h).elim
    split; · exact fun h => (hf _ h).elim
    simp only [Done]
    intro now
    split; · exact fun h => (hf _ h).elim
    split; · exact fun h => (hf _ h).elim
    rename_i hexp hst
    simp only [Done]
    intro _
    rintro (_ | u)
    · exact fun h => (hf _ h).elim
    · rintro (_ | u)
      · exact fun h => (hf _ h).elim
      · intro _
        exact ⟨ref, s, now, by simpa using hst, by simpa [Device.unix, seconds] using hexp, rfl⟩

/-- What a device authorization stores. -/
theorem deviceAuthorize_calls (req : Option DeviceAuthzReq) :
    Calls (fun _ c => ∀ i uc d, c = .dsReg i uc d → ∃ q cl dc, req = some q ∧ i = q.issuer ∧
      d = Device.newSession cl q dc) (Device.authorize req) [] := by
  unfold Device.authorize
  cases req with
  | none => trivial
  | some q =>
    simp only
    split; · trivial
    split; · trivial
    simp only [Prog.call, bind_op, bind_ret, pure_eq, Calls]
    refine ⟨by intro i uc d h; simp at h, ?_⟩
    rintro (_ | (_ | cl))
    · trivial
    · trivial
    · simp only
      split; · trivial
      refine ⟨by intro i uc d h; simp at h, ?_⟩
      rintro (_ | dc)
      · trivial
      · refine ⟨by intro i uc d h; simp at h, ?_⟩
        rintro (_ | uc)
        · trivial
        · refine ⟨?_, ?_⟩
          · intro i uc' d h
            simp only [Cmd.dsReg.injEq] at h
            obtain ⟨rfl, rfl, rfl⟩ := h
            exact ⟨q, cl, dc, rfl, rfl, rfl⟩
          · rintro (_ | n) <;> trivial

theorem entry_dsAssign {s : St} {ls : List Label} {n : Nat} {e : Entry} (h : (run E s ls).log[n]? = some e)
    {ref : Nat} {d : DeviceSession} (hc : e.cmd = .dsAssign ref d) :
    ∃ q sess now, Asked (run E s ls) e.tid (.deviceValidate (some q)) ∧
      callsOf E e.tid ((run E s ls).log.take n) =
        [⟨.dsGetUser q.issuer q.userCode, .ok (some (ref, sess))⟩, ⟨.now, now⟩] ∧
      sess.status = .authorizationPending ∧ seconds now ≤ sess.expiresAt ∧
      d = { sess with subject := some q.subject, status := .validated } := by
  obtain ⟨r, hr, hf⟩ := entry_foot h
  rw [hc] at hf
  cases r <;> simp [reqCmds, registerCmds, authorizeCmds, deviceAuthorizeCmds, tokenCmds, introspectCmds,
    revokeCmds, dpopCmds] at hf
  rename_i r
  obtain ⟨q, sess, now, h1, h2, h3, h4, h5⟩ := entry_calls h hr (calls_map (deviceValidate_calls r)) ref d hc
  subst h1
  exact ⟨q, sess, now, hr, h2, h3, h4, h5⟩

theorem entry_dsReg {s : St} {ls : List Label} {n : Nat} {e : Entry} (h : (run E s ls).log[n]? = some e)
    {i uc : Str} {d : DeviceSession} (hc : e.cmd = .dsReg i uc d) :
    ∃ q cl dc, Asked (run E s ls) e.tid (.deviceAuthorize (some q)) ∧ i = q.issuer ∧
      d = Device.newSession cl q dc := by
  obtain ⟨r, hr, hf⟩ := entry_foot h
  rw [hc] at hf
  cases r <;> simp [reqCmds, registerCmds, authorizeCmds, deviceValidateCmds, tokenCmds, introspectCmds,
    revokeCmds, dpopCmds] at hf
  rename_i r
  obtain ⟨q, cl, dc, h1, h2, h3⟩ := entry_calls h hr (calls_map (deviceAuthorize_calls r)) i uc d hc
  subst h1
  exact ⟨q, cl, dc, hr, h2, h3⟩

theorem deref_some {s : St} {o : Option Nat} {r : Nat} {d : DeviceSession} (h : deref s o = some (r, d)) :
    s.heap[r]? = some d := by
  cases o with
  | none => simp [deref] at h
  | some r' =>
    simp only [deref, Option.map_eq_some_iff, Prod.mk.injEq] at h
    obtain ⟨d', h1, rfl, rfl⟩ := h
    exact h1

theorem Entry.dsGetUser_ok {e : Entry} {i uc : Str} {r : Nat} {d : DeviceSession}
    (h : e.ev E = ⟨.dsGetUser i uc, .ok (some (r, d))⟩) : e.pre.heap[r]? = some d ∧ e.post E = e.pre := by
  obtain ⟨tid, cmd, ⟨f, str⟩, pre⟩ := e
  simp only [Entry.ev, Sigma.mk.injEq] at h
  obtain ⟨rfl, h⟩ := h
  cases f <;> simp [Entry.res, exec, faulty] at h
  refine ⟨deref_some (o := live pre.clock (pre.userIdx (userKey E i uc))) ?_, by simp [Entry.post, exec, faulty]⟩
  revert h
  cases deref pre (live pre.clock (pre.userIdx (userKey E i uc))) <;> simp [found]

theorem Entry.dsGetDev_ok {e : Entry} {i dc : Str} {r : Nat} {d : DeviceSession}
    (h : e.ev E = ⟨.dsGetDev i dc, .ok (some (r, d))⟩) : e.pre.heap[r]? = some d := by
  obtain ⟨tid, cmd, ⟨f, str⟩, pre⟩ := e
  simp only [Entry.ev, Sigma.mk.injEq] at h
  obtain ⟨rfl, h⟩ := h
  cases f <;> simp [Entry.res, exec, faulty] at h
  refine deref_some (o := live pre.clock (pre.devIdx (devKey E i dc))) ?_
  revert h
  cases deref pre (live pre.clock (pre.devIdx (devKey E i dc))) <;> simp [found]

theorem exec_devIdx (E : Env) (c : Cmd) (ch : Choice) (s : St) :
    (exec E c ch s).2.devIdx = s.devIdx ∨
    (∃ uc ref d, ((∃ i, c = .dsReg i uc d) ∨ ∃ i, c = .dsValidate i uc ref d) ∧
      (exec E c ch s).2.devIdx =
        upd s.devIdx (devKey E d.issuer d.deviceCode) (some (ref, s.clock + 120 * second))) := by
  rcases ch with ⟨f, str⟩
  cases c
  case dsReg i uc d =>
    cases f
    · exact .inr ⟨uc, s.heap.length, d, .inl ⟨i, rfl⟩, rfl⟩
    · exact .inl rfl
    · exact .inr ⟨uc, s.heap.length, d, .inl ⟨i, rfl⟩, rfl⟩
  case dsValidate i uc ref d =>
    cases f
    · exact .inr ⟨uc, ref, d, .inr ⟨i, rfl⟩, rfl⟩
    · exact .inl rfl
    · exact .inr ⟨uc, ref, d, .inr ⟨i, rfl⟩, rfl⟩
  all_goals
    left
    cases f <;> simp [exec, faulty, gen, create, Store.revoke] <;> split <;> simp

theorem Entry.dsGetDev_live {e : Entry} {i dc : Str} {r : Nat} {d : DeviceSession}
    (h : e.ev E = ⟨.dsGetDev i dc, .ok (some (r, d))⟩) :
    ∃ x, e.pre.devIdx (devKey E i dc) = some (r, x) ∧ e.time ≤ x := by
  obtain ⟨tid, cmd, ⟨f, str⟩, pre⟩ := e
  simp only [Entry.ev, Sigma.mk.injEq] at h
  obtain ⟨rfl, h⟩ := h
  cases f <;> simp [Entry.res, exec, faulty] at h
  cases hk : pre.devIdx (devKey E i dc) with
  | none => simp [hk, live, deref, found] at h
  | some y =>
    obtain ⟨r', x⟩ := y
    simp only [hk, live] at h
    split at h
    · rename_i hle
      refine ⟨x, ?_, hle⟩
      simp only [deref] at h
      cases hh : pre.heap[r']? with
      | none => simp [hh, found] at h
      | some d' => simp [hh, found] at h; simp [h.1]
    · simp [deref, found] at h

/-- No session is pending or approved. -/
def Unapproved (st : St) : Prop :=
  ∀ d ∈ st.heap, d.status ≠ .authorizationPending ∧ d.status ≠ .validated

/-- With the shipped service no session is ever pending or approved. -/
theorem unapproved_run {s : St} (hE : s.heap = []) (ls : List Label) :
    Unapproved (run E s ls).st ∧ ∀ (n : Nat) (e : Entry), (run E s ls).log[n]? = some e → Unapproved e.pre := by
  have hall : ∀ (n : Nat) (e : Entry), (run E s ls).log[n]? = some e → Unapproved e.pre := by
    intro n
    induction n using Nat.strongRecOn with
    | ind n ih =>
      intro e he
      have hl := ((linked_run E s ls).at he).1
      refine Linked.keep (P := Unapproved) (by rintro a b ⟨d, rfl⟩; exact Iff.rfl) hl ?_ ?_
      · intro e' he' hpre
        obtain ⟨m, hm⟩ := List.mem_iff_getElem?.1 he'
        obtain ⟨hmn, hm'⟩ := take_getElem? hm
        rcases exec_heap E e'.cmd e'.choice e'.pre with h | ⟨i, uc, d, hc, h⟩ | ⟨ref, d, hc, h⟩
        · unfold Unapproved Entry.post; rw [h]; exact hpre
        · obtain ⟨q, cl, dc, _, _, rfl⟩ := entry_dsReg hm' hc
          unfold Unapproved Entry.post; rw [h]
          intro d hd
          rcases List.mem_append.1 hd with hd | hd
          · exact hpre d hd
          · simp at hd; subst hd; simp [Device.newSession]
        · exfalso
          obtain ⟨q, sess, now, _, hcalls, hst, _⟩ := entry_dsAssign hm' hc
          have : (⟨.dsGetUser q.issuer q.userCode, .ok (some (ref, sess))⟩ : Ev) ∈
              callsOf E e'.tid ((run E s ls).log.take m) := by rw [hcalls]; simp
          obtain ⟨k, ek, hk, g1, _, g3⟩ := mem_calls_take this
          have := ih k (by omega) ek g1 sess (List.mem_of_getElem? (Entry.dsGetUser_ok g3).1)
          exact this.1 hst
      · intro d hd; rw [hE] at hd; simp at hd
  refine ⟨?_, hall⟩
  refine Linked.keep (P := Unapproved) (by rintro a b ⟨d, rfl⟩; exact Iff.rfl) (linked_run E s ls) ?_ ?_
  · intro e' he' hpre
    obtain ⟨m, hm'⟩ := List.mem_iff_getElem?.1 he'
    rcases exec_heap E e'.cmd e'.choice e'.pre with h | ⟨i, uc, d, hc, h⟩ | ⟨ref, d, hc, h⟩
    · unfold Unapproved Entry.post; rw [h]; exact hpre
    · obtain ⟨q, cl, dc, _, _, rfl⟩ := entry_dsReg hm' hc
      unfold Unapproved Entry.post; rw [h]
      intro d hd
      rcases List.mem_append.1 hd with hd | hd
      · exact hpre d hd
      · simp at hd; subst hd; simp [Device.newSession]
    · exfalso
      obtain ⟨q, sess, now, _, hcalls, hst, _⟩ := entry_dsAssign hm' hc
      have : (⟨.dsGetUser q.issuer q.userCode, .ok (some (ref, sess))⟩ : Ev) ∈
          callsOf E e'.tid ((run E s ls).log.take m) := by rw [hcalls]; simp
      obtain ⟨k, ek, hk, g1, _, g3⟩ := mem_calls_take this
      exact (hall k ek g1 sess (List.mem_of_getElem? (Entry.dsGetUser_ok g3).1)).1 hst
  · intro d hd; rw [hE] at hd; simp at hd

/-! ### Sequential approvals -/

/-- In a sequential history nothing happens between two calls of one request but
calls of this request. -/
theorem sequential_between {s : St} {ls : List Label} (hS : Sequential 0 ls) {l x m : Nat} {el ex em : Entry}
    (hl : (run E s ls).log[l]? = some el) (hx : (run E s ls).log[x]? = some ex)
    (hm : (run E s ls).log[m]? = some em) (hlx : l ≤ x) (hxm : x ≤ m) (ht : el.tid = em.tid) : ex.tid = em.tid := by
  rcases Nat.lt_trichotomy ex.tid em.tid with h | h | h
  · have := sequential_lt hS hx hl (by omega); omega
  · exact h
  · have := sequential_lt hS hm hx (by omega); omega

/-- In a sequential history the session is still as it was found when it is changed. -/
theorem assign_pending {s : St} {ls : List Label} (hS : Sequential 0 ls) {m : Nat} {e : Entry}
    (hm : (run E s ls).log[m]? = some e) {ref : Nat} {d : DeviceSession} (hc : e.cmd = .dsAssign ref d) :
    ∃ sess, e.pre.heap[ref]? = some sess ∧ sess.status = .authorizationPending ∧ d.status = .validated := by
  obtain ⟨q, sess, now, hq, hcalls, hst, _, rfl⟩ := entry_dsAssign hm hc
  refine ⟨sess, ?_, hst, rfl⟩
  have hget : (⟨.dsGetUser q.issuer q.userCode, .ok (some (ref, sess))⟩ : Ev) ∈
      callsOf E e.tid ((run E s ls).log.take m) := by rw [hcalls]; simp
  obtain ⟨l, el, hlm, g1, g2, g3⟩ := mem_calls_take hget
  obtain ⟨k1, k2⟩ := Entry.dsGetUser_ok g3
  refine (linked_run E s ls).keepBetween (P := fun st => st.heap[ref]? = some sess)
    (by rintro a b ⟨d, rfl⟩; exact Iff.rfl) g1 hm hlm (by rw [k2]; exact k1) ?_
  intro x ex hlx hxm hx hp
  have htid := sequential_between hS g1 hx hm (by omega) (by omega) g2
  rcases exec_heap E ex.cmd ex.choice ex.pre with h | ⟨i, uc, d, hc', h⟩ | ⟨ref', d, hc', h⟩
  · unfold Entry.post; rw [h]; exact hp
  · obtain ⟨q', cl, dc, hq', _, _⟩ := entry_dsReg hx hc'
    rw [htid] at hq'
    have := hq.unique hq'
    simp at this
  · exfalso
    obtain ⟨q', sess', now', _, hcalls', _⟩ := entry_dsAssign hx hc'
    have h1 : (callsOf E e.tid ((run E s ls).log.take m)).length = 2 := by rw [hcalls]; rfl
    have h2 : (callsOf E ex.tid ((run E s ls).log.take x)).length = 2 := by rw [hcalls']; rfl
    rw [htid] at h2
    have h3 : (callsOf E e.tid ((run E s ls).log.take (x + 1))).length = 3 := by
      rw [List.take_add_one, hx, callsOf_append, List.length_append, h2]
      simp [callsOf, htid]
    have := callsOf_mono (E := E) (i := e.tid) (log := (run E s ls).log) (show x + 1 ≤ m by omega)
    omega

/-- In a sequential history an approved session never changes. -/
theorem approved_fixed {s : St} {ls : List Label} (hS : Sequential 0 ls) {ref : Nat} {d : DeviceSession}
    (hd : d.status = .validated) {m : Nat} {e : Entry} (hm : (run E s ls).log[m]? = some e)
    (hp : e.pre.heap[ref]? = some d) : (e.post E).heap[ref]? = some d := by
  rcases exec_heap E e.cmd e.choice e.pre with h | ⟨i, uc, d', hc, h⟩ | ⟨ref', d', hc, h⟩
  · unfold Entry.post; rw [h]; exact hp
  · unfold Entry.post; rw [h]
    rw [List.getElem?_append_left (List.getElem?_eq_some_iff.1 hp).1]
    exact hp
  · unfold Entry.post; rw [h]
    by_cases hr : ref' = ref
    · subst hr
      obtain ⟨sess, g1, g2, _⟩ := assign_pending hS hm hc
      rw [hp] at g1; cases g1
      rw [hd] at g2; simp at g2
    · rw [List.getElem?_set_ne hr]; exact hp

end Verif
