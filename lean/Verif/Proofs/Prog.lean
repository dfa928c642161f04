import Verif.Model.Prog

/-! Reasoning principles for programs (open semantics). -/
namespace Verif.Prog
variable {α β : Type}

theorem done_mono {Φ Ψ : List Ev → α → Prop} {p : Prog α} {acc : List Ev}
    (h : Done Φ p acc) (hi : ∀ tr a, Φ tr a → Ψ tr a) : Done Ψ p acc := by
  induction p generalizing acc with
  | ret a => exact hi _ _ h
  | panic => trivial
  | op c k ih => exact fun r => ih r (h r)

theorem done_and {Φ Ψ : List Ev → α → Prop} {p : Prog α} {acc : List Ev}
    (h1 : Done Φ p acc) (h2 : Done Ψ p acc) : Done (fun tr a => Φ tr a ∧ Ψ tr a) p acc := by
  induction p generalizing acc with
  | ret a => exact ⟨h1, h2⟩
  | panic => trivial
  | op c k ih => exact fun r => ih r (h1 r) (h2 r)

theorem done_bind {Φ : List Ev → β → Prop} {p : Prog α} {f : α → Prog β} {acc : List Ev} :
    Done Φ (p >>= f) acc ↔ Done (fun tr a => Done Φ (f a) tr) p acc := by
  induction p generalizing acc with
  | ret a => exact Iff.rfl
  | panic => exact Iff.rfl
  | op c k ih => simp only [bind_op, Done]; exact forall_congr' fun r => ih r

theorem calls_bind {J : List Ev → Cmd → Prop} {p : Prog α} {f : α → Prog β} {acc : List Ev}
    (h : Calls J p acc) (hf : Done (fun tr a => Calls J (f a) tr) p acc) : Calls J (p >>= f) acc := by
  induction p generalizing acc with
  | ret a => exact hf
  | panic => trivial
  | op c k ih => exact ⟨h.1, fun r => ih r (h.2 r) (hf r)⟩

theorem calls_mono {J K : List Ev → Cmd → Prop} {p : Prog α} {acc : List Ev}
    (h : Calls J p acc) (hi : ∀ tr c, J tr c → K tr c) : Calls K p acc := by
  induction p generalizing acc with
  | ret a => trivial
  | panic => trivial
  | op c k ih => exact ⟨hi _ _ h.1, fun r => ih r (h.2 r)⟩

theorem noPanic_bind {W : Ev → Prop} {p : Prog α} {f : α → Prog β}
    (h : NoPanic W p) (hf : ∀ a, NoPanic W (f a)) : NoPanic W (p >>= f) := by
  induction p with
  | ret a => exact hf a
  | panic => exact h.elim
  | op c k ih => exact fun r hr => ih r (h r hr)

/-- As `noPanic_bind`, using what the first program's results satisfy. -/
theorem noPanic_bind_done {W : Ev → Prop} {p : Prog α} {f : α → Prog β} {Q : α → Prop} {acc : List Ev}
    (h : NoPanic W p) (hq : Done (fun _ a => Q a) p acc) (hf : ∀ a, Q a → NoPanic W (f a)) :
    NoPanic W (p >>= f) := by
  induction p generalizing acc with
  | ret a => exact hf a hq
  | panic => exact h.elim
  | op c k ih => exact fun r hr => ih r (h r hr) (hq r)

/-- `Path p tr q`: after the calls `tr`, what remains of `p` is `q`. -/
inductive Path : Prog α → List Ev → Prog α → Prop
  | nil (p : Prog α) : Path p [] p
  | cons (c : Cmd) (k : c.Res → Prog α) (r : c.Res) (tr : List Ev) (q : Prog α) :
      Path (k r) tr q → Path (.op c k) (⟨c, r⟩ :: tr) q

theorem Path.snoc {p : Prog α} {tr : List Ev} {c : Cmd} {k : c.Res → Prog α}
    (h : Path p tr (.op c k)) (r : c.Res) : Path p (tr ++ [⟨c, r⟩]) (k r) := by
  generalize hq : Prog.op c k = q at h
  induction h with
  | nil p => subst hq; exact .cons c k r [] _ (.nil _)
  | cons c' k' r' tr' q' h ih => exact .cons _ _ _ _ _ (ih hq)

theorem Path.toExec {p : Prog α} {tr : List Ev} {a : α} (h : Path p tr (.ret a)) :
    Exec p tr (.done a) := by
  generalize hq : Prog.ret a = q at h
  induction h with
  | nil p => subst hq; exact .ret a
  | cons c k r tr q h ih => exact .step _ _ _ _ _ (ih hq)

theorem Path.toStopped {p q : Prog α} {tr : List Ev} (h : Path p tr q) : Exec p tr .stopped := by
  induction h with
  | nil p => exact .stop p
  | cons c k r tr q h ih => exact .step _ _ _ _ _ ih

theorem Path.toPanic {p : Prog α} {tr : List Ev} (h : Path p tr .panic) :
    Exec p tr .panicked := by
  generalize hq : Prog.panic = q at h
  induction h with
  | nil p => subst hq; exact .panic
  | cons c k r tr q h ih => exact .step _ _ _ _ _ (ih hq)

/-- Executions of a sequence split in an execution of each part. -/
theorem exec_bind_done {p : Prog α} {f : α → Prog β} {tr : List Ev} {b : β}
    (h : Exec (p >>= f) tr (.done b)) :
    ∃ t1 t2 a, tr = t1 ++ t2 ∧ Exec p t1 (.done a) ∧ Exec (f a) t2 (.done b) := by
  induction p generalizing tr with
  | ret a => exact ⟨[], tr, a, rfl, .ret a, h⟩
  | panic => cases h
  | op c k ih =>
    rw [bind_op] at h
    cases h with
    | step _ _ r tr _ h =>
      obtain ⟨t1, t2, a, e, h1, h2⟩ := ih r h
      exact ⟨⟨c, r⟩ :: t1, t2, a, by simp [e], .step _ _ _ _ _ h1, h2⟩

/-- The last call of an interrupted execution satisfies `J`, hence every call does. -/
theorem calls_mem {J : List Ev → Cmd → Prop} {p : Prog α} (h : Calls J p [])
    {tr : List Ev} {o : Outcome α} (e : Exec p tr o) {ev : Ev} (hm : ev ∈ tr) :
    ∃ pre post, tr = pre ++ ev :: post ∧ J pre ev.1 := by
  obtain ⟨pre, post, rfl⟩ := List.append_of_mem hm
  exact ⟨pre, post, rfl, by simpa using calls_sound h e (pre := pre) rfl⟩

end Verif.Prog
