import Verif.Model.LockedRand

/-!
C85: goroutines that share a generator get the answers of some order of their calls, and
none of them waits forever. The second half fails: the lock is not released by a panic, and
it is not reentrant.
-/
namespace Verif.Props.Rand
open Verif.LockedRand

variable {G R A B : Type}

/-! ### What is expected: every call is one step -/

/-- A piece of code on its own: its answer and the memory after it; `none` if it panics or
needs the lock. -/
def run : Code G A → G → Option (A × G)
  | .ret a, g => some (a, g)
  | .panic, _ => none
  | .lock _, _ => none
  | .unlock _, _ => none
  | .read k, g => run (k g) g
  | .write g k, _ => run k g

/-- The generator of `math/rand` knows nothing of the lock. -/
def Flat : Code G A → Prop
  | .ret _ => True
  | .panic => True
  | .lock _ => False
  | .unlock _ => False
  | .read k => ∀ g, Flat (k g)
  | .write _ k => Flat k

structure FlatLib (L : Lib G R) : Prop where
  body : ∀ m, Flat (L.body m)
  draw : ∀ n, Flat (L.draw n)

/-- A goroutine whose call is answered: what it does next, and the memory. -/
inductive Answer (L : Lib G R) : Client R → G → Client R → G → Prop
  | call {m k g r g'} : run (L.body m) g = some (r, g') → Answer L (.call m k) g (k r) g'
  | shuffle {n swap k g l g'} : run (LockedRand.shuffle L n fun i j => compile L (swap i j)) g = some (l, g') →
      Answer L (.shuffle n swap k) g (k l) g'

/-- Calls answered one after the other, in any order. -/
inductive Serial (L : Lib G R) : (Nat → Client R) → G → (Nat → Client R) → G → Prop
  | refl {cs g} : Serial L cs g cs g
  | tail {cs g rest g' i c g''} : Serial L cs g rest g' → Answer L (rest i) g' c g'' → Serial L cs g (set rest i c) g''

/-- About to access the memory of the generator. -/
def Accesses (p : Code G A) : Prop := (∃ k, p = .read k) ∨ ∃ g k, p = .write g k

/-! ### Code that does not unlock what it did not lock -/

def Guarded : Code G A → Prop
  | .ret _ => True
  | .panic => True
  | .lock _ => True
  | .unlock _ => False
  | .read k => ∀ g, Guarded (k g)
  | .write _ k => Guarded k

theorem guarded_of_flat : ∀ {p : Code G A}, Flat p → Guarded p
  | .ret _, _ => trivial
  | .panic, _ => trivial
  | .lock _, h => absurd h id
  | .unlock _, h => h
  | .read _, h => fun g => guarded_of_flat (h g)
  | .write _ k, h => guarded_of_flat (p := k) h

theorem guarded_bind : ∀ {p : Code G A} {f : A → Code G B}, Guarded p → (∀ a, Guarded (f a)) → Guarded (p.bind f)
  | .ret a, _, _, h => h a
  | .panic, _, _, _ => trivial
  | .lock _, _, _, _ => trivial
  | .unlock _, _, h, _ => absurd h id
  | .read _, _, h, h' => fun g => guarded_bind (h g) h'
  | .write _ k, _, h, h' => guarded_bind (p := k) h h'

theorem run_bind : ∀ (p : Code G A) (f : A → Code G B) (g : G),
    run (p.bind f) g = (run p g).bind fun x => run (f x.1) x.2
  | .ret _, _, _ => rfl
  | .panic, _, _ => rfl
  | .lock _, _, _ => rfl
  | .unlock _, _, _ => rfl
  | .read k, f, g => run_bind (k g) f g
  | .write g k, f, _ => run_bind k f g

theorem bind_assoc {C : Type} : ∀ (p : Code G A) (f : A → Code G B) (h : B → Code G C),
    (p.bind f).bind h = p.bind fun a => (f a).bind h
  | .ret _, _, _ => rfl
  | .panic, _, _ => rfl
  | .lock k, f, h => congrArg Code.lock (bind_assoc k f h)
  | .unlock k, f, h => congrArg Code.unlock (bind_assoc k f h)
  | .read k, f, h => congrArg Code.read (funext fun g => bind_assoc (k g) f h)
  | .write g k, f, h => congrArg (Code.write g) (bind_assoc k f h)

/-- A goroutine outside a call is at its end or about to lock. -/
theorem compile_cases (L : Lib G R) (c : Client R) :
    compile L c = .ret () ∨ compile L c = .panic ∨ ∃ k, compile L c = .lock k := by
  cases c with
  | done => exact .inl rfl
  | crash => exact .inr (.inl rfl)
  | call m k => exact .inr (.inr ⟨_, rfl⟩)
  | shuffle n s k => exact .inr (.inr ⟨_, rfl⟩)

theorem compile_guarded (L : Lib G R) (c : Client R) : Guarded (compile L c) := by
  obtain h | h | ⟨k, h⟩ := compile_cases L c <;> rw [h] <;> trivial

theorem shuffleLoop_guarded {L : Lib G R} (hL : FlatLib L) (s : Nat → Nat → Client R) :
    ∀ i acc, Guarded (shuffleLoop L (fun a b => compile L (s a b)) i acc)
  | 0, _ => trivial
  | i + 1, _ => guarded_bind (guarded_of_flat (hL.draw _)) fun _ =>
      guarded_bind (compile_guarded L _) fun _ => shuffleLoop_guarded hL s i _

/-- What a call does inside the lock, as code that answers what the goroutine does next. -/
def inner (L : Lib G R) : Client R → Code G (Client R)
  | .done => .panic
  | .crash => .panic
  | .call m k => (L.body m).bind fun r => .ret (k r)
  | .shuffle n swap k => (LockedRand.shuffle L n fun i j => compile L (swap i j)).bind fun l => .ret (k l)

/-- After the call: release the lock, go on. -/
def after (L : Lib G R) (c : Client R) : Code G Unit := .unlock (compile L c)

theorem inner_guarded {L : Lib G R} (hL : FlatLib L) (c : Client R) : Guarded (inner L c) := by
  cases c with
  | done => trivial
  | crash => trivial
  | call m k => exact guarded_bind (guarded_of_flat (hL.body m)) fun _ => trivial
  | shuffle n s k =>
    refine guarded_bind ?_ fun _ => trivial
    unfold LockedRand.shuffle
    split
    · trivial
    · exact shuffleLoop_guarded hL s _ _

theorem compile_lock {L : Lib G R} {c : Client R} {k : Code G Unit} (h : compile L c = .lock k) :
    k = (inner L c).bind (after L) := by
  cases c with
  | done => cases h
  | crash => cases h
  | call m k' => cases h; rw [inner, bind_assoc]; rfl
  | shuffle n s k' => cases h; rw [inner, bind_assoc]; rfl

theorem answer_iff {L : Lib G R} {c c' : Client R} {g g' : G} :
    Answer L c g c' g' ↔ run (inner L c) g = some (c', g') := by
  constructor
  · rintro (h | h)
    · rw [inner, run_bind, h]; rfl
    · rw [inner, run_bind, h]; rfl
  · intro h
    cases c with
    | done => cases h
    | crash => cases h
    | call m k =>
      rw [inner, run_bind] at h
      cases hr : run (L.body m) g with
      | none => rw [hr] at h; cases h
      | some x => rw [hr] at h; cases h; exact .call hr
    | shuffle n s k =>
      rw [inner, run_bind] at h
      cases hr : run (LockedRand.shuffle L n fun i j => compile L (s i j)) g with
      | none => rw [hr] at h; cases h
      | some x => rw [hr] at h; cases h; exact .shuffle hr

/-! ### The invariant -/

theorem set_self {X : Type} (f : Nat → X) (i : Nat) (x : X) : set f i x i = x := if_pos rfl
theorem set_ne {X : Type} (f : Nat → X) {i j : Nat} (x : X) (h : j ≠ i) : set f i x j = f j := if_neg h

/-- Goroutine `i` is inside a call that runs `b`; the others are outside. -/
structure Inside (L : Lib G R) (c : Conf G) (rest : Nat → Client R) (i : Nat) (b : Code G (Client R)) : Prop where
  locked : c.locked = true
  thr : c.thr i = b.bind (after L)
  guarded : Guarded b
  other : ∀ j, j ≠ i → c.thr j = compile L (rest j)
  calls : ∃ k, compile L (rest i) = .lock k

theorem compile_step {L : Lib G R} {cl : Client R} {p : Code G Unit} (h : compile L cl = p) :
    (∀ k, p ≠ .unlock k) ∧ (∀ k, p ≠ .read k) ∧ ∀ g k, p ≠ .write g k := by
  subst h
  obtain h | h | ⟨k, h⟩ := compile_cases L cl <;> rw [h] <;> simp

/-- Only the goroutine inside the call can make a step, and its steps are those of `b`. -/
theorem inside_step {L : Lib G R} {c c' : Conf G} {rest : Nat → Client R} {i : Nat} {b : Code G (Client R)}
    (h : Inside L c rest i b) (hs : Step c c') :
    (∃ cl, b = .ret cl ∧ c' = start L c.mem (set rest i cl)) ∨
    ∃ b', Inside L c' rest i b' ∧ run b' c'.mem = run b c.mem := by
  have other : ∀ {j}, c.thr j = compile L (rest j) → (∃ k, c.thr j = .lock k) ∨ c.thr j = .ret () ∨ c.thr j = .panic := by
    intro j hj
    rw [hj]
    obtain h | h | h := compile_cases L (rest j)
    · exact .inr (.inl h)
    · exact .inr (.inr h)
    · exact .inl h
  cases hs with
  | lock _ h2 => rw [h.locked] at h2; cases h2
  | fatal _ h2 => rw [h.locked] at h2; cases h2
  | @unlock j k h1 =>
    by_cases hj : j = i
    · subst hj
      left
      rw [h.thr] at h1
      cases b with
      | ret cl =>
        cases h1
        refine ⟨cl, rfl, ?_⟩
        unfold start
        congr 1
        funext j'
        by_cases hj' : j' = j
        · subst hj'; rw [set_self, set_self]
        · rw [set_ne _ _ hj', set_ne _ _ hj', h.other _ hj']
      | unlock k => exact absurd h.guarded id
      | panic => cases h1
      | lock k => cases h1
      | read k => cases h1
      | write g k => cases h1
    · exact absurd h1 ((compile_step (h.other j hj).symm).1 k)
  | @read j k h1 =>
    by_cases hj : j = i
    · subst hj
      right
      rw [h.thr] at h1
      cases b with
      | read k' =>
        cases h1
        exact ⟨k' c.mem, ⟨h.locked, set_self .., h.guarded c.mem, fun j' hj' => by
          rw [← h.other j' hj']; exact set_ne _ _ hj', h.calls⟩, rfl⟩
      | ret cl => cases h1
      | unlock k => cases h1
      | panic => cases h1
      | lock k => cases h1
      | write g k => cases h1
    · exact absurd h1 ((compile_step (h.other j hj).symm).2.1 k)
  | @write j g k h1 =>
    by_cases hj : j = i
    · subst hj
      right
      rw [h.thr] at h1
      cases b with
      | write g' k' =>
        cases h1
        exact ⟨k', ⟨h.locked, set_self .., h.guarded, fun j' hj' => by
          rw [← h.other j' hj']; exact set_ne _ _ hj', h.calls⟩, rfl⟩
      | ret cl => cases h1
      | unlock k => cases h1
      | panic => cases h1
      | lock k => cases h1
      | read k => cases h1
    · exact absurd h1 ((compile_step (h.other j hj).symm).2.2 g k)

/-- The only steps while the lock is free: someone takes it. -/
theorem start_step {L : Lib G R} (hL : FlatLib L) {g : G} {rest : Nat → Client R} {c' : Conf G}
    (hs : Step (start L g rest) c') : c'.mem = g ∧ ∃ i, Inside L c' rest i (inner L (rest i)) := by
  cases hs with
  | @lock i k h1 _ =>
    exact ⟨rfl, i, rfl, (set_self ..).trans (compile_lock h1), inner_guarded hL _, fun j hj => set_ne _ _ hj, k, h1⟩
  | unlock h1 _ => exact absurd h1 ((compile_step rfl).1 _)
  | fatal h1 _ => exact absurd h1 ((compile_step rfl).1 _)
  | read h1 => exact absurd h1 ((compile_step rfl).2.1 _)
  | write h1 => exact absurd h1 ((compile_step rfl).2.2 _ _)

theorem reach_inv {L : Lib G R} (hL : FlatLib L) {g : G} {cs : Nat → Client R} {c : Conf G} (h : Reach (start L g cs) c) :
    ∃ rest g', Serial L cs g rest g' ∧
      (c = start L g' rest ∨ ∃ i b, Inside L c rest i b ∧ run b c.mem = run (inner L (rest i)) g') := by
  induction h with
  | refl => exact ⟨cs, g, .refl, .inl rfl⟩
  | tail _ hs ih =>
    obtain ⟨rest, g', hser, rfl | ⟨i, b, hi, hr⟩⟩ := ih
    · obtain ⟨h1, i, hi⟩ := start_step hL hs
      exact ⟨rest, g', hser, .inr ⟨i, _, hi, by rw [h1]⟩⟩
    · obtain ⟨cl, rfl, rfl⟩ | ⟨b', hi', hr'⟩ := inside_step hi hs
      · exact ⟨_, _, hser.tail (answer_iff.2 hr.symm), .inl rfl⟩
      · exact ⟨rest, g', hser, .inr ⟨i, b', hi', hr'.trans hr⟩⟩

/-! ### The theorems -/

/-- **C85** (linearizable). Whatever the goroutines do and however their steps are mixed:
whenever the lock is free, memory and goroutines are as if the calls had been answered one
after the other. While it is taken, this holds of all goroutines but one. -/
theorem C85_linearizable (L : Lib G R) (hL : FlatLib L) (g : G) (cs : Nat → Client R) (c : Conf G)
    (h : Reach (start L g cs) c) :
    ∃ rest g', Serial L cs g rest g' ∧ (c.locked = false → c = start L g' rest) ∧
      (c.locked = true → ∃ i, ∀ j, j ≠ i → c.thr j = compile L (rest j)) := by
  obtain ⟨rest, g', hser, rfl | ⟨i, b, hi, -⟩⟩ := reach_inv hL h
  · exact ⟨rest, g', hser, fun _ => rfl, fun h => by cases h⟩
  · exact ⟨rest, g', hser, fun h => (by rw [hi.locked] at h; cases h), fun _ => ⟨i, hi.other⟩⟩

/-- **C85** (no data race). Two goroutines are never about to access the generator at once. -/
theorem C85_no_race (L : Lib G R) (hL : FlatLib L) (g : G) (cs : Nat → Client R) (c : Conf G)
    (h : Reach (start L g cs) c) (i j : Nat) (hi : Accesses (c.thr i)) (hj : Accesses (c.thr j)) : i = j := by
  have out : ∀ {cl : Client R} {p : Code G Unit}, p = compile L cl → ¬ Accesses p := by
    rintro cl p hp (⟨k, hk⟩ | ⟨g, k, hk⟩)
    · exact (compile_step hp.symm).2.1 k hk
    · exact (compile_step hp.symm).2.2 g k hk
  obtain ⟨rest, g', -, rfl | ⟨t, b, hin, -⟩⟩ := reach_inv hL h
  · exact absurd hi (out rfl)
  · by_cases h1 : i = t
    · by_cases h2 : j = t
      · rw [h1, h2]
      · exact absurd hj (out (hin.other j h2))
    · exact absurd hi (out (hin.other i h1))

/-- Nobody moves any more but the goroutine inside a call that has no answer. -/
theorem inside_forever {L : Lib G R} {c c' : Conf G} {rest : Nat → Client R} {i : Nat} {b : Code G (Client R)}
    (hi : Inside L c rest i b) (hr : run b c.mem = none) (h : Reach c c') :
    ∃ b', Inside L c' rest i b' ∧ run b' c'.mem = none := by
  induction h with
  | refl => exact ⟨b, hi, hr⟩
  | tail _ hs ih =>
    obtain ⟨b1, hi1, hr1⟩ := ih
    obtain ⟨cl, rfl, -⟩ | ⟨b2, hi2, hr2⟩ := inside_step hi1 hs
    · cases hr1
    · exact ⟨b2, hi2, hr2.trans hr1⟩

theorem not_ret_of_none {L : Lib G R} {b : Code G (Client R)} {g : G} (h : run b g = none) : b.bind (after L) ≠ .ret () := by
  cases b with
  | ret a => cases h
  | _ => intro h'; cases h'

/-- A call without an answer takes the lock and keeps it. -/
theorem blocked {L : Lib G R} (hL : FlatLib L) {g : G} {cs : Nat → Client R} {i : Nat} {k : Code G Unit}
    (hk : compile L (cs i) = .lock k) (hn : ∀ c' g', ¬ Answer L (cs i) g c' g') :
    ∃ c1, Step (start L g cs) c1 ∧ ∀ c2, Reach c1 c2 → c2.locked = true ∧ c2.thr i ≠ .ret () ∧
      ∀ j, j ≠ i → c2.thr j = compile L (cs j) := by
  refine ⟨_, .lock hk rfl, fun c2 h => ?_⟩
  have hr : run (inner L (cs i)) g = none := by
    cases hr : run (inner L (cs i)) g with
    | none => rfl
    | some x => exact absurd (answer_iff.2 hr) (hn _ _)
  obtain ⟨b, hb, hb'⟩ := inside_forever (rest := cs) (i := i) (b := inner L (cs i))
    ⟨rfl, (set_self ..).trans (compile_lock hk), inner_guarded hL _, fun j hj => set_ne _ _ hj, k, hk⟩ hr h
  exact ⟨hb.locked, hb.thr ▸ not_ret_of_none hb', hb.other⟩

/-- The panics that `math/rand` documents. -/
structure Documented (L : Lib G R) : Prop where
  int63n : ∀ n g, n ≤ 0 → run (L.body (.int63n n)) g = none
  int31n : ∀ n g, n ≤ 0 → run (L.body (.int31n n)) g = none
  intn : ∀ n g, n ≤ 0 → run (L.body (.intn n)) g = none
  perm : ∀ n g, n < 0 → run (L.body (.perm n)) g = none

/-- The calls that panic. -/
def BadCall : Client R → Prop
  | .call (.int63n n) _ => n ≤ 0
  | .call (.int31n n) _ => n ≤ 0
  | .call (.intn n) _ => n ≤ 0
  | .call (.perm n) _ => n < 0
  | .shuffle n _ _ => n < 0
  | _ => False

/-- **C85 violated** (panic). Once a goroutine calls `Int63n`, `Int31n` or `Intn` with a number that is not
positive, or `Perm` or `Shuffle` with a negative one, and gets the lock, no other goroutine
ever moves again: all of them wait for a lock that nobody releases. -/
theorem C85_panic_violated (L : Lib G R) (hL : FlatLib L) (hD : Documented L) (g : G) (cs : Nat → Client R) (i : Nat)
    (hi : BadCall (cs i)) :
    ∃ c1, Step (start L g cs) c1 ∧ ∀ c2, Reach c1 c2 → c2.locked = true ∧ c2.thr i ≠ .ret () ∧
      ∀ j, j ≠ i → c2.thr j = compile L (cs j) := by
  have hk : ∃ k, compile L (cs i) = .lock k := by
    cases h : cs i with
    | done => rw [h] at hi; exact absurd hi id
    | crash => rw [h] at hi; exact absurd hi id
    | call m k => exact ⟨_, rfl⟩
    | shuffle n s k => exact ⟨_, rfl⟩
  obtain ⟨k, hk⟩ := hk
  refine blocked hL hk fun c' g' ha => ?_
  revert hi ha
  cases cs i with
  | done => exact fun h => absurd h id
  | crash => exact fun h => absurd h id
  | call m k =>
    intro hi ha
    cases ha with
    | call ha =>
      cases m with
      | int63n n => rw [hD.int63n n g hi] at ha; cases ha
      | int31n n => rw [hD.int31n n g hi] at ha; cases ha
      | intn n => rw [hD.intn n g hi] at ha; cases ha
      | perm n => rw [hD.perm n g hi] at ha; cases ha
      | _ => exact absurd hi id
  | shuffle n s k =>
    intro hi ha
    cases ha with
    | shuffle ha =>
      rw [LockedRand.shuffle, if_pos (show n < 0 from hi)] at ha; cases ha

/-- **C85 violated** (callback). A callback of `Shuffle` that uses the generator waits for the lock
that its own goroutine holds, and with it all goroutines wait forever. -/
theorem C85_callback_violated (L : Lib G R) (hL : FlatLib L) (g : G) (cs : Nat → Client R) (i : Nat) (n : Int)
    (swap : Nat → Nat → Client R) (k : List (Nat × Nat) → Client R) (hn : 2 ≤ n) (hi : cs i = .shuffle n swap k)
    (hs : ∀ a b, ∃ m k', swap a b = .call m k') :
    ∃ c1, Step (start L g cs) c1 ∧ ∀ c2, Reach c1 c2 → c2.locked = true ∧ c2.thr i ≠ .ret () ∧
      ∀ j, j ≠ i → c2.thr j = compile L (cs j) := by
  refine blocked hL (k := (LockedRand.shuffle L n fun i j => compile L (swap i j)).bind fun l => .unlock (compile L (k l)))
    (by rw [hi]; rfl) fun c' g' ha => ?_
  rw [hi] at ha
  cases ha with
  | shuffle ha =>
    obtain ⟨x, hx⟩ : ∃ x, n.toNat - 1 = x + 1 := ⟨n.toNat - 2, by omega⟩
    rw [LockedRand.shuffle, if_neg (by omega), hx, shuffleLoop, run_bind] at ha
    cases hd : run (L.draw (x + 2)) g with
    | none => rw [hd] at ha; cases ha
    | some y =>
      obtain ⟨m, k', h1⟩ := hs (x + 1) y.1
      rw [hd] at ha
      simp only [Option.bind_some] at ha
      rw [run_bind, h1] at ha
      cases ha

/-- The goroutine inside a call can finish it. -/
theorem finish {L : Lib G R} {rest : Nat → Client R} {i : Nat} : ∀ {b : Code G (Client R)} {c : Conf G} {cl : Client R} {g : G},
    Inside L c rest i b → run b c.mem = some (cl, g) → Reach c (start L g (set rest i cl))
  | .ret a, c, cl, g, h, hr => by
    cases hr
    have : start L c.mem (set rest i a) = { c with locked := false, thr := set c.thr i (compile L a) } := by
      unfold start
      congr 1
      funext j'
      by_cases hj' : j' = i
      · subst hj'; rw [set_self, set_self]
      · rw [set_ne _ _ hj', set_ne _ _ hj', h.other _ hj']
    rw [this]
    exact .tail .refl (.unlock h.thr h.locked)
  | .panic, _, _, _, _, hr => by cases hr
  | .lock _, _, _, _, _, hr => by cases hr
  | .unlock _, _, _, _, _, hr => by cases hr
  | .read k, c, cl, g, h, hr => by
    have hs : Step c { c with thr := set c.thr i ((k c.mem).bind (after L)) } := .read h.thr
    have h' : Inside L { c with thr := set c.thr i ((k c.mem).bind (after L)) } rest i (k c.mem) :=
      ⟨h.locked, set_self .., h.guarded c.mem, fun j' hj' => by rw [← h.other j' hj']; exact set_ne _ _ hj', h.calls⟩
    exact reach_head hs (finish h' hr)
  | .write g' k, c, cl, g, h, hr => by
    have hs : Step c { c with mem := g', thr := set c.thr i (k.bind (after L)) } := .write h.thr
    have h' : Inside L { c with mem := g', thr := set c.thr i (k.bind (after L)) } rest i k :=
      ⟨h.locked, set_self .., h.guarded, fun j' hj' => by rw [← h.other j' hj']; exact set_ne _ _ hj', h.calls⟩
    exact reach_head hs (finish h' hr)
where
  reach_head {a b d : Conf G} (h1 : Step a b) (h2 : Reach b d) : Reach a d := by
    induction h2 with
    | refl => exact .tail .refl h1
    | tail _ hs ih => exact .tail ih hs

/-- **C85** (progress, partial). If every call that comes up in some order has an answer, then
from wherever the goroutines are they can all go on: the lock can become free, and then any
goroutine can have its next call answered. Missing: this for calls that panic and for
callbacks that use the generator, where it is false. -/
theorem C85_progress_partial (L : Lib G R) (hL : FlatLib L) (g : G) (cs : Nat → Client R)
    (hok : ∀ rest g', Serial L cs g rest g' → ∀ i, rest i = .done ∨ rest i = .crash ∨ ∃ c' g'', Answer L (rest i) g' c' g'')
    (c : Conf G) (h : Reach (start L g cs) c) :
    ∃ rest g', Serial L cs g rest g' ∧ Reach c (start L g' rest) ∧
      ∀ i, rest i = .done ∨ rest i = .crash ∨
        ∃ c' g'', Answer L (rest i) g' c' g'' ∧ Reach (start L g' rest) (start L g'' (set rest i c')) := by
  have next : ∀ rest g', Serial L cs g rest g' → ∀ i, rest i = .done ∨ rest i = .crash ∨
      ∃ c' g'', Answer L (rest i) g' c' g'' ∧ Reach (start L g' rest) (start L g'' (set rest i c')) := by
    intro rest g' hs i
    obtain h | h | ⟨c', g'', ha⟩ := hok rest g' hs i
    · exact .inl h
    · exact .inr (.inl h)
    · refine .inr (.inr ⟨c', g'', ha, ?_⟩)
      have hk : ∃ k, compile L (rest i) = .lock k := by
        revert ha
        cases rest i with
        | done => exact fun ha => by cases ha
        | crash => exact fun ha => by cases ha
        | call m k => exact fun _ => ⟨_, rfl⟩
        | shuffle n s k => exact fun _ => ⟨_, rfl⟩
      obtain ⟨k, hk⟩ := hk
      exact finish.reach_head (.lock hk rfl) (finish (rest := rest) (i := i)
        ⟨rfl, (set_self ..).trans (compile_lock hk), inner_guarded hL _, fun j hj => set_ne _ _ hj, k, hk⟩ (answer_iff.1 ha))
  obtain ⟨rest, g', hser, rfl | ⟨i, b, hi, hr⟩⟩ := reach_inv hL h
  · exact ⟨rest, g', hser, .refl, next _ _ hser⟩
  · obtain ⟨k, hk⟩ := hi.calls
    obtain h1 | h1 | ⟨cl, g'', ha⟩ := hok rest g' hser i
    · rw [h1] at hk; cases hk
    · rw [h1] at hk; cases hk
    · have hser' := hser.tail ha
      exact ⟨_, g'', hser', finish hi (hr.trans (answer_iff.1 ha)), next _ _ hser'⟩

/-! ### Examples -/

/-- A generator that counts, with two accesses per call. -/
def counter : Code Nat Nat := .read fun g => .write (g + 1) (.ret g)

/-- It panics as documented. -/
def demo : Lib Nat Nat where
  body
    | .int63n n => if n ≤ 0 then .panic else counter
    | .int31n n => if n ≤ 0 then .panic else counter
    | .intn n => if n ≤ 0 then .panic else counter
    | .perm n => if n < 0 then .panic else counter
    | _ => counter
  draw n := .read fun g => .write (g + 1) (.ret (g % n))

theorem demo_flat : FlatLib demo where
  body m := by
    have h : Flat counter := fun _ => trivial
    cases m with
    | int63n n => by_cases hn : n ≤ 0 <;> simp only [demo, hn, if_true, if_false] <;> first | trivial | exact h
    | int31n n => by_cases hn : n ≤ 0 <;> simp only [demo, hn, if_true, if_false] <;> first | trivial | exact h
    | intn n => by_cases hn : n ≤ 0 <;> simp only [demo, hn, if_true, if_false] <;> first | trivial | exact h
    | perm n => by_cases hn : n < 0 <;> simp only [demo, hn, if_true, if_false] <;> first | trivial | exact h
    | _ => exact h
  draw _ := fun _ => trivial

theorem demo_documented : Documented demo := by
  constructor <;> intro n g hn <;> simp [demo, hn, run]

/-- Two goroutines draw numbers, a third one gives a bad bound, a fourth one shuffles with a
callback that draws again. -/
def demoClients : Nat → Client Nat
  | 0 => .call .int63 fun _ => .call .uint64 fun _ => .done
  | 1 => .call (.intn 6) fun _ => .done
  | 2 => .call (.intn 0) fun _ => .done
  | 3 => .shuffle 3 (fun _ _ => .call .int63 fun _ => .done) fun _ => .done
  | _ => .done

/-- Goroutine 0 reads; goroutine 1 waits. Then 0 ends its call and 1 gets the next number:
a reachable configuration with two answers (C85_linearizable, C85_no_race). -/
example : ∃ c, Reach (start demo 7 demoClients) c ∧ c.locked = false ∧ c.mem = 9 ∧ c.thr 1 = .ret () := by
  refine ⟨_, .tail (.tail (.tail (.tail (.tail (.tail (.tail (.tail .refl
    (.lock (i := 0) rfl rfl)) (.read (i := 0) rfl)) (.write (i := 0) rfl)) (.unlock (i := 0) rfl rfl))
    (.lock (i := 1) rfl rfl)) (.read (i := 1) rfl)) (.write (i := 1) rfl)) (.unlock (i := 1) rfl rfl), rfl, rfl, rfl⟩

/-- The same two calls, one after the other. -/
example : Serial demo demoClients 7 (set (set demoClients 0 (.call .uint64 fun _ => .done)) 1 .done) 9 :=
  .tail (.tail .refl (.call (L := demo) (m := .int63) rfl)) (.call (L := demo) (m := .intn 6) rfl)

/-- The third goroutine stops all others (C85_panic_violated), and so does the fourth one
(C85_callback_violated). -/
example : BadCall (demoClients 2) ∧ ∃ swap k, demoClients 3 = .shuffle 3 swap k ∧ ∀ a b, ∃ m k', swap a b = .call m k' :=
  ⟨by show (0 : Int) ≤ 0; decide, _, _, rfl, fun _ _ => ⟨_, _, rfl⟩⟩

/-- Goroutines that draw one number each: every call that comes up has an answer
(C85_progress_partial). -/
example (rest : Nat → Client Nat) (g g' : Nat) (h : Serial demo (fun _ => .call .int63 fun _ => .done) g rest g') (i : Nat) :
    rest i = .done ∨ rest i = .crash ∨ ∃ c' g'', Answer demo (rest i) g' c' g'' := by
  have inv : ∀ i, rest i = .done ∨ rest i = .call .int63 fun _ => .done := by
    clear i
    generalize hcs : (fun _ => Client.call Method.int63 fun _ => Client.done : Nat → Client Nat) = cs at h
    induction h with
    | refl => subst hcs; exact fun _ => .inr rfl
    | @tail rest g1 i c g2 _ ha ih =>
      intro j
      by_cases hj : j = i
      · subst hj
        rw [set_self]
        obtain h1 | h1 := ih j <;> rw [h1] at ha <;> cases ha
        exact .inl rfl
      · rw [set_ne _ _ hj]; exact ih j
  obtain h1 | h1 := inv i
  · exact .inl h1
  · exact .inr (.inr ⟨.done, g' + 1, h1 ▸ .call rfl⟩)

/-- A shuffle of four elements with a quiet callback is answered with three pairs. -/
example : ∃ g', Answer demo (.shuffle 4 (fun _ _ => .done) fun l => if l = [(3, 3), (2, 2), (1, 1)] then .done else .crash) 7 .done g' :=
  ⟨10, .shuffle (L := demo) (l := [(3, 3), (2, 2), (1, 1)]) rfl⟩

end Verif.Props.Rand
