import Verif.Proofs.Prog

/-! Programs whose every undisturbed execution ends well. -/
namespace Verif.Prog
variable {α β : Type}

/-- As long as all answers satisfy `W`, the program does not crash and what it returns
satisfies `Q`. -/
def Must (W : Ev → Prop) (Q : α → Prop) : Prog α → Prop
  | .ret a => Q a
  | .panic => False
  | .op c k => ∀ r, W ⟨c, r⟩ → Must W Q (k r)

theorem must_sound {W : Ev → Prop} {Q : α → Prop} {p : Prog α} (h : Must W Q p) {tr : List Ev} {o : Outcome α}
    (e : Exec p tr o) (hw : ∀ ev ∈ tr, W ev) : o = .stopped ∨ ∃ a, o = .done a ∧ Q a := by
  induction p generalizing tr with
  | ret a => cases e; exact .inr ⟨a, rfl, h⟩; exact .inl rfl
  | panic => exact h.elim
  | op c k ih =>
    cases e with
    | stop => exact .inl rfl
    | step _ _ r tr _ e => exact ih r (h r (hw _ (List.mem_cons_self ..))) e fun ev hm => hw ev (List.mem_cons_of_mem _ hm)

theorem must_bind {W : Ev → Prop} {Q : β → Prop} {R : α → Prop} {p : Prog α} {f : α → Prog β} (h : Must W R p)
    (hf : ∀ a, R a → Must W Q (f a)) : Must W Q (p >>= f) := by
  induction p with
  | ret a => exact hf a h
  | panic => exact h.elim
  | op c k ih => exact fun r hr => ih r (h r hr)

theorem must_mono {W : Ev → Prop} {Q R : α → Prop} {p : Prog α} (h : Must W R p) (hr : ∀ a, R a → Q a) : Must W Q p := by
  induction p with
  | ret a => exact hr a h
  | panic => exact h.elim
  | op c k ih => exact fun r hw => ih r (h r hw)

end Verif.Prog
