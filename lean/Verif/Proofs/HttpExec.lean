import Verif.Proofs.HttpTransfer

/-! The calls of an HTTP request form an execution of its endpoint. -/
namespace Verif.Http
open Verif.Prog Verif.Spec
variable {S : Server}

/-- Every HTTP request's calls form an execution of its endpoint up to where it currently
is, and only arrived requests made calls. -/
theorem paths_run (S : Server) (s : St) (hls : List Label) :
    (∀ i th, (run S s hls).threads[i]? = some th →
      Path (serve S th.route th.req) (callsOf S.E i (run S s hls).log) th.prog) ∧
    (∀ e ∈ (run S s hls).log, e.tid < (run S s hls).threads.length) := by
  induction hls using List.reverseRecOn with
  | nil => exact ⟨by simp [run], by simp [run]⟩
  | append_singleton hls l h =>
    have hr : run S s (hls ++ [l]) = step S (run S s hls) l := by simp [run]
    rw [hr]
    generalize run S s hls = c at h
    cases l with
    | arrive route r =>
      refine ⟨?_, ?_⟩
      · intro i th hth
        simp only [step] at hth ⊢
        rw [List.getElem?_append] at hth
        split at hth
        · exact h.1 i th hth
        · rename_i hlt
          have hi : i = c.threads.length := by
            rcases Nat.lt_or_ge i (c.threads.length + 1) with h' | h'
            · omega
            · rw [List.getElem?_eq_none (by simp; omega)] at hth; simp at hth
          subst hi
          simp at hth
          subst hth
          have : callsOf S.E c.threads.length c.log = [] := by
            simp only [callsOf, List.map_eq_nil_iff, List.filter_eq_nil_iff]
            intro e he
            have := h.2 e he
            simp; omega
          rw [this]
          exact .nil _
      · intro e he
        have := h.2 e he
        simp [step]; omega
    | tick d => exact h
    | run i ch =>
      simp only [step]
      split
      · rename_i route req cmd k hth
        have hlen : i < c.threads.length := by
          rcases Nat.lt_or_ge i c.threads.length with h' | h'
          · exact h'
          · rw [List.getElem?_eq_none h'] at hth; simp at hth
        refine ⟨?_, ?_⟩
        · intro j th hj
          simp only at hj ⊢
          rw [List.getElem?_set] at hj
          split at hj
          · rename_i hij
            subst hij
            simp at hj
            obtain ⟨_, rfl⟩ := hj
            have hp := h.1 i _ hth
            have := hp.snoc ((⟨i, cmd, ch, c.st⟩ : Entry).res S.E)
            have he : callsOf S.E i (c.log ++ [⟨i, cmd, ch, c.st⟩]) =
                callsOf S.E i c.log ++ [⟨cmd, (⟨i, cmd, ch, c.st⟩ : Entry).res S.E⟩] := by
              simp [callsOf, List.filter_append]; rfl
            rw [he]; exact this
          · rename_i hij
            have := h.1 j th hj
            have he : callsOf S.E j (c.log ++ [⟨i, cmd, ch, c.st⟩]) = callsOf S.E j c.log := by
              simp [callsOf, List.filter_append, hij]
            rw [he]; exact this
        · intro e he
          simp only [List.length_set]
          rcases List.mem_append.1 he with he | he
          · exact h.2 e he
          · simp at he; subst he; exact hlen
      · exact h

/-- The calls of an answered HTTP request form a complete execution. -/
theorem Answered.exec {s : St} {hls : List Label} {i : Nat} {route : Route} {r : Req} {a : Resp}
    (h : Answered (run S s hls) i route r a) :
    Exec (serve S route r) (callsOf S.E i (run S s hls).log) (.done a) := by
  obtain ⟨th, h1, rfl, rfl, h3⟩ := h
  have hp := (paths_run S s hls).1 i th h1
  unfold Thread.answer at h3
  split at h3
  · rename_i heq
    cases h3
    rw [heq] at hp
    exact hp.toExec
  · simp at h3

end Verif.Http
