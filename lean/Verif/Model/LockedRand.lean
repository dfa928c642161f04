/-!
`sdk/randomness`: `LockedRand`, a generator of `math/rand` behind a mutex, shared by
goroutines. Any number of goroutines run at once; memory accesses are single steps.

`math/rand` is a parameter: what its methods do to the memory of the generator, access by
access. Loops of the library are taken to end. Goroutines use the generator through the
methods only (the field is not exported); what else they do is not modelled, except that it
can panic.
-/
namespace Verif.LockedRand

/-- Go code that shares the memory `G` of the generator and the mutex. -/
inductive Code (G A : Type) where
  | ret (a : A)
  | panic
  | lock (k : Code G A)
  | unlock (k : Code G A)
  | read (k : G → Code G A)
  | write (g : G) (k : Code G A)

namespace Code
variable {G A B : Type}

/-- One piece of code after the other; a panic ends both. -/
def bind : Code G A → (A → Code G B) → Code G B
  | ret a, f => f a
  | panic, _ => panic
  | lock k, f => lock (k.bind f)
  | unlock k, f => unlock (k.bind f)
  | read k, f => read fun g => (k g).bind f
  | write g k, f => write g (k.bind f)

end Code

/-- The methods of `rand.Rand` without callback; `Read` by the length of the buffer. -/
inductive Method where
  | seed (s : Int)
  | int63 | uint32 | uint64 | int31 | int
  | int63n (n : Int) | int31n (n : Int) | intn (n : Int)
  | float64 | float32
  | perm (n : Int)
  | normFloat64 | expFloat64
  | read (len : Nat)

/-- `math/rand`: what each method does, and the number that `Shuffle` draws below `n`. -/
structure Lib (G R : Type) where
  body : Method → Code G R
  draw : Nat → Code G Nat

/-- What a goroutine does with the generator: it ends, panics, or calls a method and goes on
with the answer. `Shuffle` is given a callback that is again such a program; the answer
lists the pairs that the callback was called with. -/
inductive Client (R : Type) where
  | done
  | crash
  | call (m : Method) (k : R → Client R)
  | shuffle (n : Int) (swap : Nat → Nat → Client R) (k : List (Nat × Nat) → Client R)

variable {G R : Type}

/-- `rand.Rand.Shuffle` from index `i` downwards: draw `j` with `j ≤ i`, call the callback. -/
def shuffleLoop (L : Lib G R) (swap : Nat → Nat → Code G Unit) : Nat → List (Nat × Nat) → Code G (List (Nat × Nat))
  | 0, acc => .ret acc
  | i + 1, acc => (L.draw (i + 2)).bind fun j => (swap (i + 1) j).bind fun _ => shuffleLoop L swap i (acc ++ [(i + 1, j)])

/-- `rand.Rand.Shuffle`. -/
def shuffle (L : Lib G R) (n : Int) (swap : Nat → Nat → Code G Unit) : Code G (List (Nat × Nat)) :=
  if n < 0 then .panic else shuffleLoop L swap (n.toNat - 1) []

/-- locked_rand.go:25-167: every method takes the lock, calls the generator and releases the
lock. There is no `defer`: a panic leaves the lock taken. -/
def compile (L : Lib G R) : Client R → Code G Unit
  | .done => .ret ()
  | .crash => .panic
  | .call m k => .lock ((L.body m).bind fun r => .unlock (compile L (k r)))
  | .shuffle n swap k => .lock ((shuffle L n fun i j => compile L (swap i j)).bind fun l => .unlock (compile L (k l)))

/-- The shared memory, the mutex, and what each goroutine has still to do. -/
structure Conf (G : Type) where
  mem : G
  locked : Bool
  thr : Nat → Code G Unit

def set {X : Type} (f : Nat → X) (i : Nat) (x : X) : Nat → X := fun j => if j = i then x else f j

/-- One step of goroutine `i`. `Lock` waits for a free mutex; `Unlock` of a free one is a
fatal error. -/
inductive Step : Conf G → Conf G → Prop
  | lock {c i k} : c.thr i = .lock k → c.locked = false → Step c { c with locked := true, thr := set c.thr i k }
  | unlock {c i k} : c.thr i = .unlock k → c.locked = true → Step c { c with locked := false, thr := set c.thr i k }
  | fatal {c i k} : c.thr i = .unlock k → c.locked = false → Step c { c with thr := set c.thr i .panic }
  | read {c i k} : c.thr i = .read k → Step c { c with thr := set c.thr i (k c.mem) }
  | write {c i g k} : c.thr i = .write g k → Step c { c with mem := g, thr := set c.thr i k }

/-- What can be reached in any number of steps, in any order. -/
inductive Reach : Conf G → Conf G → Prop
  | refl {c} : Reach c c
  | tail {a b c} : Reach a b → Step b c → Reach a c

/-- The goroutines before their first step. -/
def start (L : Lib G R) (g : G) (cs : Nat → Client R) : Conf G :=
  { mem := g, locked := false, thr := fun i => compile L (cs i) }

end Verif.LockedRand
