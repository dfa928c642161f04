import Verif.Proofs.Run
import Verif.Spec.Token

/-! What each call does to each store. -/
namespace Verif.Store
open Verif

theorem exec_const (E : Env) (c : Cmd) (ch : Choice) (s : St) :
    (exec E c ch s).2.clients = s.clients ∧ (exec E c ch s).2.resources = s.resources := by
  rcases ch with ⟨f, str⟩
  cases c <;> cases f <;> simp [exec, faulty, gen, create, revoke] <;> split <;> simp

theorem exec_codes (E : Env) (c : Cmd) (ch : Choice) (s : St) :
    (exec E c ch s).2.codes = s.codes ∨
    (∃ i code, c = .csDel i code ∧ (exec E c ch s).2.codes = upd s.codes (codeKey E i code) none) ∨
    (∃ i code cs, c = .csReg i code cs ∧
      (exec E c ch s).2.codes = upd s.codes (codeKey E i code) (some (cs, s.clock + 60 * second))) := by
  rcases ch with ⟨f, str⟩
  cases c <;> cases f <;> simp [exec, faulty, gen, create, revoke] <;> split <;> simp

theorem exec_requests (E : Env) (c : Cmd) (ch : Choice) (s : St) :
    (exec E c ch s).2.requests = s.requests ∨
    (∃ i uri, c = .arDel i uri ∧ (exec E c ch s).2.requests = upd s.requests (requestKey E i uri) none) ∨
    (∃ i uri r, c = .arReg i uri r ∧
      (exec E c ch s).2.requests = upd s.requests (requestKey E i uri) (some (r, s.clock + 60 * second))) := by
  rcases ch with ⟨f, str⟩
  cases c <;> cases f <;> simp [exec, faulty, gen, create, revoke] <;> split <;> simp

theorem exec_proofs (E : Env) (c : Cmd) (ch : Choice) (s : St) :
    (exec E c ch s).2.proofs = s.proofs ∨
    (∃ id, c = .dpopRegister id ∧
      (exec E c ch s).2.proofs = upd s.proofs id (some (s.clock + 60 * second))) := by
  rcases ch with ⟨f, str⟩
  cases c <;> cases f <;> simp [exec, faulty, gen, create, revoke] <;> split <;> simp

/-- Only creation and revocation touch the token store. -/
theorem exec_tokens (E : Env) (c : Cmd) (ch : Choice) (s : St) :
    ((exec E c ch s).2.tokId = s.tokId ∧ (exec E c ch s).2.tokVal = s.tokVal) ∨
    (∃ i t, c = .tkCreate i t ∧ (exec E c ch s).2 = create E i t s) ∨
    (∃ i id t, c = .tkRevoke i id ∧ s.tokId id = some t ∧ (exec E c ch s).2 = (revoke id s).2) := by
  rcases ch with ⟨f, str⟩
  cases c with
  | tkRevoke i id =>
    cases ht : s.tokId id with
    | none => left; cases f <;> simp [exec, faulty, revoke, ht]
    | some t =>
      cases f with
      | before => left; simp [exec, faulty]
      | none => right; right; exact ⟨i, id, t, rfl, ht, by simp [exec, faulty]⟩
      | after => right; right; exact ⟨i, id, t, rfl, ht, by simp [exec, faulty]⟩
  | _ => cases f <;> simp [exec, faulty, gen]

theorem found_live {α : Type} {now : Nat} {o : Option (α × Nat)} {v : α}
    (h : found (live now o) = .ok (some v)) : ∃ exp, o = some (v, exp) ∧ now ≤ exp := by
  cases o with
  | none => simp [found, live] at h
  | some p =>
    obtain ⟨w, exp⟩ := p
    by_cases hle : now ≤ exp
    · simp [found, live, hle] at h; subst h; exact ⟨exp, rfl, hle⟩
    · simp [found, live, hle] at h

end Verif.Store

namespace Verif
open Store
variable {E : Env}

/-! ### Answers seen in the log -/

theorem Entry.csGet_ok {e : Entry} {i code : Str} {cs : CodeSession}
    (h : e.ev E = ⟨.csGet i code, .ok (some cs)⟩) :
    ∃ exp, e.pre.codes (codeKey E i code) = some (cs, exp) ∧ e.time ≤ exp := by
  obtain ⟨tid, cmd, ⟨f, str⟩, pre⟩ := e
  simp only [Entry.ev, Sigma.mk.injEq] at h
  obtain ⟨rfl, h⟩ := h
  cases f <;> simp [Entry.res, exec, faulty] at h
  exact found_live h

theorem Entry.csDel_ok {e : Entry} {i code : Str} (h : e.ev E = ⟨.csDel i code, .ok ()⟩) :
    (e.post E).codes (codeKey E i code) = none := by
  obtain ⟨tid, cmd, ⟨f, str⟩, pre⟩ := e
  simp only [Entry.ev, Sigma.mk.injEq] at h
  obtain ⟨rfl, h⟩ := h
  cases f <;> simp [Entry.res, exec, faulty] at h
  simp [Entry.post, exec, faulty, upd]

theorem Entry.csReg_ok {e : Entry} {i code : Str} {cs : CodeSession} {n : Nat}
    (h : e.ev E = ⟨.csReg i code cs, .ok n⟩) :
    n = 60 ∧ (e.post E).codes (codeKey E i code) = some (cs, e.time + 60 * second) := by
  obtain ⟨tid, cmd, ⟨f, str⟩, pre⟩ := e
  simp only [Entry.ev, Sigma.mk.injEq] at h
  obtain ⟨rfl, h⟩ := h
  cases f <;> simp [Entry.res, exec, faulty] at h
  simp [Entry.post, exec, faulty, upd, Entry.time, h]

theorem Entry.arGet_ok {e : Entry} {i uri : Str} {r : AuthzRequest}
    (h : e.ev E = ⟨.arGet i uri, .ok (some r)⟩) :
    ∃ exp, e.pre.requests (requestKey E i uri) = some (r, exp) ∧ e.time ≤ exp := by
  obtain ⟨tid, cmd, ⟨f, str⟩, pre⟩ := e
  simp only [Entry.ev, Sigma.mk.injEq] at h
  obtain ⟨rfl, h⟩ := h
  cases f <;> simp [Entry.res, exec, faulty] at h
  exact found_live h

theorem Entry.arDel_ok {e : Entry} {i uri : Str} (h : e.ev E = ⟨.arDel i uri, .ok ()⟩) :
    (e.post E).requests (requestKey E i uri) = none := by
  obtain ⟨tid, cmd, ⟨f, str⟩, pre⟩ := e
  simp only [Entry.ev, Sigma.mk.injEq] at h
  obtain ⟨rfl, h⟩ := h
  cases f <;> simp [Entry.res, exec, faulty] at h
  simp [Entry.post, exec, faulty, upd]

/-- Lookups of the shipped stores never answer a nil pointer without error. -/
theorem Entry.contract (E : Env) (e : Entry) : Spec.StoreContract (e.ev E) := by
  have hf : ∀ {α : Type} (f : Fault) (st : St) (o : Option α) (s' : St),
      (faulty f st (found o, s')).1 ≠ (.ok none : SRes (Option α)) := by
    intro α f st o s'
    cases f <;> cases o <;> simp [faulty, found]
  obtain ⟨tid, cmd, ⟨f, str⟩, pre⟩ := e
  cases cmd <;> first | exact hf _ _ _ _ | trivial

end Verif
