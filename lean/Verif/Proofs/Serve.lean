import Verif.Proofs.History

/-!
Serving one request undisturbed: if the calls of a request are executed one after
the other without fault, the answer is the one computed by `Good`.
-/
namespace Verif
open Verif.Prog Verif.Spec Verif.Store
variable {E : Env}

/-- Executed alone and without faults from `s`, whatever non-empty strings the
generators produce, the program returns after at most `n` calls and `Φ` holds of
the answer and the final stores. -/
def Good {α : Type} (E : Env) (Φ : α → St → Prop) : Prog α → Nat → St → Prop
  | .ret a, _, s => Φ a s
  | .panic, _, _ => False
  | .op _ _, 0, _ => False
  | .op c k, n + 1, s => ∀ str : Str, str ≠ [] →
      Good E Φ (k (exec E c { str := str } s).1) n (exec E c { str := str } s).2

theorem good_bind {α β : Type} {Φ : β → St → Prop} {Ψ : α → St → Prop} {p : Prog α} {f : α → Prog β} {m n : Nat}
    {s : St} (h : Good E Ψ p m s) (hf : ∀ a s', Ψ a s' → Good E Φ (f a) n s') : Good E Φ (p >>= f) (m + n) s := by
  induction p generalizing m s with
  | ret a =>
    have : ∀ (q : Prog β) (n k : Nat) (s : St), Good E Φ q n s → Good E Φ q (k + n) s := by
      intro q
      induction q with
      | ret _ => intro n k s h; exact h
      | panic => intro n k s h; exact h
      | op c k' ih =>
        intro n k s h
        cases n with
        | zero => exact h.elim
        | succ n => exact fun str hs => ih _ n k _ (h str hs)
    exact this _ _ _ _ (hf a s h)
  | panic => exact h.elim
  | op c k ih =>
    cases m with
    | zero => exact h.elim
    | succ m =>
      rw [bind_op, Nat.add_right_comm]
      exact fun str hs => ih _ (h str hs)

theorem good_mono {α : Type} {Φ Ψ : α → St → Prop} {p : Prog α} {n : Nat} {s : St} (h : Good E Φ p n s)
    (hi : ∀ a s', Φ a s' → Ψ a s') : Good E Ψ p n s := by
  induction p generalizing n s with
  | ret a => exact hi _ _ h
  | panic => exact h
  | op c k ih =>
    cases n with
    | zero => exact h
    | succ n => exact fun str hs => ih _ (h str hs)

/-- The labels that serve request `r`, which arrives as number `i`, with these choices. -/
def serve (i : Nat) (r : Req) (chs : List Choice) : List Label := .arrive r :: chs.map (.run i)

/-- The choices are those of an undisturbed run. -/
def Undisturbed (chs : List Choice) : Prop := ∀ ch ∈ chs, ch.fault = .none ∧ ch.str ≠ []

theorem run_append (s : St) (ls ls' : List Label) : run E s (ls ++ ls') = ls'.foldl (step E) (run E s ls) := by
  simp [run, List.foldl_append]

theorem run_alone {Φ : Resp → St → Prop} {r : Req} : ∀ {chs : List Choice} {p : Prog Resp} {n : Nat} {c : Conf}
    {ths : List Thread}, Good E Φ p n c.st → Undisturbed chs → n ≤ chs.length → c.threads = ths ++ [⟨r, p⟩] →
    ∃ a, ((chs.map (Label.run ths.length)).foldl (step E) c).threads = ths ++ [⟨r, .ret a⟩] ∧
      Φ a ((chs.map (Label.run ths.length)).foldl (step E) c).st := by
  intro chs
  induction chs with
  | nil =>
    intro p n c ths h hu hn ht
    cases p with
    | ret a => exact ⟨a, ht, h⟩
    | panic => exact h.elim
    | op c k =>
      cases n with
      | zero => exact h.elim
      | succ n => simp at hn
  | cons ch chs ih =>
    intro p n c ths h hu hn ht
    simp only [List.map_cons, List.foldl_cons]
    have hget : c.threads[ths.length]? = some ⟨r, p⟩ := by rw [ht]; simp
    cases p with
    | ret a =>
      have hst : step E c (.run ths.length ch) = c := by simp [step, hget]
      rw [hst]
      exact ih (p := .ret a) (n := 0) h (fun x hx => hu x (by simp [hx])) (by omega) ht
    | panic => exact h.elim
    | op cm k =>
      cases n with
      | zero => exact h.elim
      | succ n =>
        obtain ⟨g1, g2⟩ := hu ch (by simp)
        obtain ⟨f, str⟩ := ch
        simp only at g1 g2
        subst g1
        refine ih (c := step E c (.run ths.length { str := str })) (n := n) (p := k (exec E cm { str := str } c.st).1)
          ?_ (fun x hx => hu x (by simp [hx])) (by simp at hn; omega) ?_
        · simp only [step, hget]
          exact h str g2
        · simp only [step, hget, Entry.res]
          rw [ht]; simp

/-- Serving a request undisturbed, after any history, answers it as computed. -/
theorem serve_good {Φ : Resp → St → Prop} {s : St} {ls : List Label} {r : Req} {n : Nat} {chs : List Choice}
    (h : Good E Φ (handle E r) n (run E s ls).st) (hu : Undisturbed chs) (hn : n ≤ chs.length) :
    ∃ a, Answered (run E s (ls ++ serve (run E s ls).threads.length r chs)) (run E s ls).threads.length r a ∧
      Φ a (run E s (ls ++ serve (run E s ls).threads.length r chs)).st ∧
      (run E s (ls ++ serve (run E s ls).threads.length r chs)).threads.length = (run E s ls).threads.length + 1 ∧
      ∀ j r' a', Answered (run E s ls) j r' a' →
        Answered (run E s (ls ++ serve (run E s ls).threads.length r chs)) j r' a' := by
  obtain ⟨a, h1, h2⟩ := run_alone (c := step E (run E s ls) (.arrive r)) (ths := (run E s ls).threads) (r := r) h hu hn rfl
  have hrun : run E s (ls ++ serve (run E s ls).threads.length r chs) =
      ((chs.map (Label.run (run E s ls).threads.length)).foldl (step E) (step E (run E s ls) (.arrive r))) := by
    rw [run_append]; rfl
  rw [hrun]
  refine ⟨a, ⟨_, by rw [h1]; simp; rfl, rfl, rfl⟩, h2, by rw [h1]; simp, ?_⟩
  rintro j r' a' ⟨th, g1, g2, g3⟩
  refine ⟨th, ?_, g2, g3⟩
  rw [h1, List.getElem?_append_left (List.getElem?_eq_some_iff.1 g1).1]
  exact g1

theorem run_tick (s : St) (ls : List Label) (d : Nat) :
    run E s (ls ++ [.tick d]) = { run E s ls with st := { (run E s ls).st with clock := (run E s ls).st.clock + d } } := by
  rw [run_append]; rfl

/-- Answers are final. -/
theorem Answered.mono {s : St} {ls ls' : List Label} {i : Nat} {r : Req} {a : Resp}
    (h : Answered (run E s ls) i r a) : Answered (run E s (ls ++ ls')) i r a := by
  rw [run_append]
  revert h
  generalize run E s ls = c
  induction ls' generalizing c with
  | nil => exact id
  | cons l ls' ih =>
    intro h
    refine ih _ ?_
    obtain ⟨th, h1, h2, h3⟩ := h
    have hret : th.prog = .ret a := by
      unfold Thread.answer at h3; split at h3 <;> simp_all
    cases l with
    | arrive r' =>
      exact ⟨th, by simp only [step]; rw [List.getElem?_append_left (List.getElem?_eq_some_iff.1 h1).1]; exact h1, h2, h3⟩
    | tick d => exact ⟨th, h1, h2, h3⟩
    | run j ch =>
      refine ⟨th, ?_, h2, h3⟩
      simp only [step]
      split
      · rename_i req cmd k heq
        by_cases hj : j = i
        · subst hj; rw [h1] at heq; simp at heq; subst heq; simp at hret
        · simp only; rw [List.getElem?_set_ne hj]; exact h1
      · exact h1

end Verif

namespace Verif
open Verif.Prog Verif.Spec Verif.Store Verif.TokenSvc
variable {E : Env}

theorem good_accessToken (cl : Client) (md : TokenMeta) (cnf : Option Cnf) (s : St) :
    Good E (fun o s' => ∃ jti v, v ≠ [] ∧ o = some { accessTokenSpec cl md cnf s.clock jti with value := v } ∧
      s' = create E md.issuer { accessTokenSpec cl md cnf s.clock jti with value := v } s)
      (generateAccessToken cl md cnf) 4 s := by
  unfold generateAccessToken
  simp only [Prog.call, bind_op, bind_ret, pure_eq, Good, exec, gen]
  intro _ _ jti _ v hv
  simp only [hv, if_false, Good]
  intro _ _
  exact ⟨jti, v, hv, rfl, rfl⟩

theorem good_refreshToken (cl : Client) (md : TokenMeta) (cnf : Option Cnf) (s : St) :
    Good E (fun o s' => ∃ jti v, v ≠ [] ∧ o = some { refreshTokenSpec cl md cnf s.clock jti with value := v } ∧
      s' = create E md.issuer { refreshTokenSpec cl md cnf s.clock jti with value := v } s)
      (generateRefreshToken cl md cnf) 4 s := by
  unfold generateRefreshToken
  simp only [Prog.call, bind_op, bind_ret, pure_eq, Good, exec, gen]
  intro _ _ jti _ v hv
  simp only [hv, if_false, Good]
  intro _ _
  exact ⟨jti, v, hv, rfl, rfl⟩

theorem good_token {Φ : TokenResp → St → Prop} {q : TokenReq} {c cl : Client} {n : Nat} {s : St}
    (hv : validateRequest (some q) = none) (hc : q.client = some c) (hs : s.clients c.clientId = some cl)
    (h : Good E Φ (dispatch E (some cl) q) n s) : Good E Φ (token E (some q)) (n + 1) s := by
  unfold token
  rw [hv]
  simp only [hc, Prog.call, bind_op, bind_ret, Good, exec, faulty, hs, found]
  intro _ _
  exact h

/-- A device redemption of an approved session succeeds. -/
theorem good_deviceTokens (cl : Client) (q : TokenReq) (sub : Str) (scope : Option Str) (s : St) :
    Good E (fun a _ => Succeeds a ∧ ∃ t, a.accessToken = some t ∧
      Carries t q.issuer sub cl.clientId (scope.getD []) [] q.tokenConfirmation)
      (deviceTokens cl q sub scope) 8 s := by
  unfold deviceTokens
  refine good_bind (m := 4) (n := 4) (good_accessToken cl _ _ s) ?_
  rintro _ s' ⟨jti, v, hv, rfl, -⟩
  have key : ∀ (rt : Option Token) (s'' : St), Succeeds
      { accessToken := some { accessTokenSpec cl { issuer := q.issuer, subject := sub, scope := scope.getD [] }
          q.tokenConfirmation s.clock jti with value := v }, refreshToken := rt } ∧ ∃ t, some { accessTokenSpec cl { issuer := q.issuer, subject := sub, scope := scope.getD [] }
          q.tokenConfirmation s.clock jti with value := v } = some t ∧
      Carries t q.issuer sub cl.clientId (scope.getD []) [] q.tokenConfirmation := by
    intro rt _
    exact ⟨rfl, _, rfl, ⟨⟨_, rfl, rfl, rfl, rfl, rfl, rfl⟩, rfl, rfl⟩⟩
  cases scope with
  | none => exact key none s'
  | some sc =>
    simp only
    split
    · refine good_bind (m := 4) (n := 0) (good_refreshToken cl _ _ s') ?_
      rintro _ s'' ⟨jti', v', hv', rfl, -⟩
      exact key _ s''
    · exact key none s'

end Verif
