import Verif.Proofs.Prog
import Verif.Spec.System
import Mathlib.Data.List.Induction

/-!
Histories of the concurrent server: the log is a chain of store states, each
request's part of the log is an execution of its service function, and in a
sequential history requests do not interleave.
-/
namespace Verif
open Verif.Prog

variable {E : Env}

/-- Only time passed. -/
def Adv (s s' : St) : Prop := ∃ d, s' = { s with clock := s.clock + d }

theorem Adv.refl (s : St) : Adv s s := ⟨0, rfl⟩

theorem Adv.tick {s s' : St} (h : Adv s s') (d : Nat) : Adv s { s' with clock := s'.clock + d } := by
  obtain ⟨e, rfl⟩ := h
  exact ⟨e + d, by simp [Nat.add_assoc]⟩

theorem exec_clock (E : Env) (c : Cmd) (ch : Store.Choice) (s : St) : (Store.exec E c ch s).2.clock = s.clock := by
  rcases ch with ⟨f, str⟩
  cases c <;> cases f <;> simp [Store.exec, Store.faulty, Store.gen, Store.create, Store.revoke] <;> split <;> rfl

/-! ### The log -/

/-- The stores evolve from `s` through the log to `fin`, time passing in between. -/
def Linked (E : Env) : St → List Entry → St → Prop
  | s, [], fin => Adv s fin
  | s, e :: es, fin => Adv s e.pre ∧ Linked E (e.post E) es fin

theorem Linked.adv {s : St} {l : List Entry} {f f' : St} (h : Linked E s l f) (h' : Adv f f') : Linked E s l f' := by
  induction l generalizing s with
  | nil => obtain ⟨d, rfl⟩ := h'; exact Adv.tick h d
  | cons e es ih => exact ⟨h.1, ih h.2⟩

theorem Linked.snoc {s : St} {l : List Entry} {e : Entry} (h : Linked E s l e.pre) :
    Linked E s (l ++ [e]) (e.post E) := by
  induction l generalizing s with
  | nil => exact ⟨h, Adv.refl _⟩
  | cons e es ih => exact ⟨h.1, ih h.2⟩

theorem Linked.split {s : St} {l1 : List Entry} {e : Entry} {l2 : List Entry} {f : St}
    (h : Linked E s (l1 ++ e :: l2) f) : Linked E s l1 e.pre ∧ Linked E (e.post E) l2 f := by
  induction l1 generalizing s with
  | nil => exact h
  | cons e es ih => exact ⟨⟨h.1, (ih h.2).1⟩, (ih h.2).2⟩

theorem linked_run (E : Env) (s : St) (ls : List Label) : Linked E s (run E s ls).log (run E s ls).st := by
  suffices ∀ (c : Conf), Linked E s c.log c.st → Linked E s (ls.foldl (step E) c).log (ls.foldl (step E) c).st by
    exact this _ (Adv.refl s)
  induction ls with
  | nil => exact fun c h => h
  | cons l ls ih =>
    intro c h
    refine ih _ ?_
    cases l with
    | arrive r => exact h
    | tick d => exact h.adv ⟨d, rfl⟩
    | run i ch =>
      simp only [step]
      split
      · exact Linked.snoc h
      · exact h

/-- A predicate on stores that does not look at the clock. -/
def Timeless (P : St → Prop) : Prop := ∀ s s', Adv s s' → (P s ↔ P s')

/-- A timeless predicate kept by every executed call is kept. -/
theorem Linked.keep {P : St → Prop} (hP : Timeless P) {s : St} {l : List Entry} {f : St}
    (h : Linked E s l f) (hk : ∀ e ∈ l, P e.pre → P (e.post E)) (hs : P s) : P f := by
  induction l generalizing s with
  | nil => exact (hP _ _ h).1 hs
  | cons e es ih =>
    exact ih h.2 (fun e' he => hk e' (List.mem_cons_of_mem _ he))
      (hk e (List.mem_cons_self ..) ((hP _ _ h.1).1 hs))

/-- If a timeless predicate holds at the end but not at the beginning, there is a
last call that made it true; from then on it holds. -/
theorem Linked.last {P : St → Prop} (hP : Timeless P) {s : St} (hs : ¬ P s) :
    ∀ {l : List Entry} {f : St}, Linked E s l f → P f →
    ∃ l1 e l2, l = l1 ++ e :: l2 ∧ ¬ P e.pre ∧ P (e.post E) ∧ ∀ e' ∈ l2, P e'.pre ∧ P (e'.post E) := by
  intro l
  induction l using List.reverseRecOn with
  | nil => intro f h hf; exact absurd ((hP _ _ h).2 hf) hs
  | append_singleton l e ih =>
    intro f h hf
    obtain ⟨h1, h2⟩ := Linked.split h
    have hpost : P (e.post E) := (hP _ _ h2).2 hf
    by_cases hpre : P e.pre
    · obtain ⟨l1, e0, l2, rfl, a1, a2, a3⟩ := ih h1 hpre
      refine ⟨l1, e0, l2 ++ [e], by simp, a1, a2, ?_⟩
      intro e' he'
      rcases List.mem_append.1 he' with he' | he'
      · exact a3 e' he'
      · simp at he'; subst he'; exact ⟨hpre, hpost⟩
    · exact ⟨l, e, [], rfl, hpre, hpost, by simp⟩

/-- Time does not go backwards along the log. -/
theorem Linked.clock {s : St} {l : List Entry} {f : St} (h : Linked E s l f) : s.clock ≤ f.clock := by
  induction l generalizing s with
  | nil => obtain ⟨d, rfl⟩ := h; simp
  | cons e es ih =>
    obtain ⟨⟨d, hd⟩, h2⟩ := h
    have := ih h2
    rw [Entry.post, exec_clock, hd] at this
    simp at this; omega

/-! ### Requests and their calls -/

/-- Every request's calls form an execution of its service function up to where
it currently is, and only arrived requests made calls. -/
theorem path_run (E : Env) (s : St) (ls : List Label) :
    (∀ i th, (run E s ls).threads[i]? = some th →
      Path (handle E th.req) (callsOf E i (run E s ls).log) th.prog) ∧
    (∀ e ∈ (run E s ls).log, e.tid < (run E s ls).threads.length) := by
  suffices ∀ (c : Conf),
      ((∀ i th, c.threads[i]? = some th → Path (handle E th.req) (callsOf E i c.log) th.prog) ∧
        (∀ e ∈ c.log, e.tid < c.threads.length)) →
      ((∀ i th, (ls.foldl (step E) c).threads[i]? = some th →
        Path (handle E th.req) (callsOf E i (ls.foldl (step E) c).log) th.prog) ∧
        (∀ e ∈ (ls.foldl (step E) c).log, e.tid < (ls.foldl (step E) c).threads.length)) by
    exact this _ ⟨by simp, by simp⟩
  induction ls with
  | nil => exact fun c h => h
  | cons l ls ih =>
    intro c h
    refine ih _ ?_
    cases l with
    | arrive r =>
      refine ⟨?_, ?_⟩
      · intro i th hth
        simp only [step] at hth ⊢
        rw [List.getElem?_append] at hth
        split at hth
        · exact h.1 i th hth
        · rename_i hlt
          have hi : i = c.threads.length := by
            rcases Nat.lt_or_ge i (c.threads.length + 1) with h' | h'
            · omega
            · rw [List.getElem?_eq_none (by simp; omega)] at hth; simp at hth
          subst hi
          simp at hth
          subst hth
          have : callsOf E c.threads.length c.log = [] := by
            simp only [callsOf, List.map_eq_nil_iff, List.filter_eq_nil_iff]
            intro e he
            have := h.2 e he
            simp; omega
          rw [this]
          exact .nil _
      · intro e he
        have := h.2 e he
        simp [step]; omega
    | tick d => exact h
    | run i ch =>
      simp only [step]
      split
      · rename_i req cmd k hth
        have hlen : i < c.threads.length := by
          rcases Nat.lt_or_ge i c.threads.length with h' | h'
          · exact h'
          · rw [List.getElem?_eq_none h'] at hth; simp at hth
        refine ⟨?_, ?_⟩
        · intro j th hj
          simp only at hj ⊢
          rw [List.getElem?_set] at hj
          split at hj
          · rename_i hij
            subst hij
            simp at hj
            obtain ⟨_, rfl⟩ := hj
            have hp := h.1 i _ hth
            have := hp.snoc ((⟨i, cmd, ch, c.st⟩ : Entry).res E)
            have he : callsOf E i (c.log ++ [⟨i, cmd, ch, c.st⟩]) =
                callsOf E i c.log ++ [⟨cmd, (⟨i, cmd, ch, c.st⟩ : Entry).res E⟩] := by
              simp [callsOf, List.filter_append]; rfl
            rw [he]; exact this
          · rename_i hij
            have := h.1 j th hj
            have he : callsOf E j (c.log ++ [⟨i, cmd, ch, c.st⟩]) = callsOf E j c.log := by
              simp [callsOf, List.filter_append, hij]
            rw [he]; exact this
        · intro e he
          simp only [List.length_set]
          rcases List.mem_append.1 he with he | he
          · exact h.2 e he
          · simp at he; subst he; exact hlen
      · exact h

/-! ### Positions in the log -/

/-- The `a`-th call of request `i` sits at some position of the log, with exactly
`a` calls of that request before it. -/
theorem callsOf_pos (i : Nat) : ∀ (log : List Entry) (a : Nat) (x : Ev), (callsOf E i log)[a]? = some x →
    ∃ l1 e l2, log = l1 ++ e :: l2 ∧ e.tid = i ∧ e.ev E = x ∧ (callsOf E i l1).length = a := by
  intro log
  induction log with
  | nil => intro a x h; simp [callsOf] at h
  | cons e es ih =>
    intro a x h
    by_cases he : e.tid = i
    · have hc : callsOf E i (e :: es) = e.ev E :: callsOf E i es := by simp [callsOf, he]
      rw [hc] at h
      cases a with
      | zero => simp at h; exact ⟨[], e, es, rfl, he, h, rfl⟩
      | succ a =>
        simp at h
        obtain ⟨l1, e', l2, rfl, h2, h3, h4⟩ := ih a x h
        exact ⟨e :: l1, e', l2, rfl, h2, h3, by simp [callsOf, he] at h4 ⊢; omega⟩
    · have hc : ∀ l, callsOf E i (e :: l) = callsOf E i l := by intro l; simp [callsOf, he]
      rw [hc] at h
      obtain ⟨l1, e', l2, rfl, h2, h3, h4⟩ := ih a x h
      exact ⟨e :: l1, e', l2, rfl, h2, h3, by rw [hc]; exact h4⟩

theorem callsOf_append (i : Nat) (l1 l2 : List Entry) :
    callsOf E i (l1 ++ l2) = callsOf E i l1 ++ callsOf E i l2 := by
  simp [callsOf, List.filter_append]

theorem mem_callsOf {i : Nat} {log : List Entry} {e : Entry} (h : e ∈ log) (hi : e.tid = i) :
    e.ev E ∈ callsOf E i log := by
  simp only [callsOf, List.mem_map, List.mem_filter]
  exact ⟨e, ⟨h, by simp [hi]⟩, rfl⟩

/-! ### Sequential histories -/

/-- In a sequential history requests do not interleave: the log lists the calls
of request 0, then those of request 1, and so on. -/
theorem sequential_sorted (E : Env) (s : St) (ls : List Label) (h : Sequential 0 ls) :
    (run E s ls).log.Pairwise (fun e e' => e.tid ≤ e'.tid) := by
  suffices ∀ (c : Conf), Sequential c.threads.length ls →
      c.log.Pairwise (fun e e' => e.tid ≤ e'.tid) → (∀ e ∈ c.log, e.tid < c.threads.length) →
      (ls.foldl (step E) c).log.Pairwise (fun e e' => e.tid ≤ e'.tid) by
    exact this _ h (by simp) (by simp)
  clear h
  induction ls with
  | nil => exact fun c _ h _ => h
  | cons l ls ih =>
    intro c hs hp hb
    cases l with
    | arrive r =>
      refine ih _ (by simpa [step, Sequential] using hs) hp ?_
      intro e he; have := hb e he; simp [step]; omega
    | tick d => exact ih _ hs hp hb
    | run i ch =>
      obtain ⟨hi, hs⟩ := hs
      simp only [List.foldl_cons, step]
      split
      · refine ih _ (by simpa using hs) ?_ ?_
        · simp only
          rw [List.pairwise_append]
          refine ⟨hp, by simp, ?_⟩
          intro a ha b hb'
          simp at hb'; subst hb'
          have := hb a ha
          simp only; omega
        · intro e he
          simp only [List.length_set]
          rcases List.mem_append.1 he with he | he
          · exact hb e he
          · simp at he; subst he; simp only; omega
      · exact ih _ hs hp hb

end Verif
