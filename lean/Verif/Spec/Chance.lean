import Verif.Go.Str

/-! Counting the strings of random bytes. -/
namespace Verif.Spec

/-- All strings of `N` bytes. -/
def streams : Nat → List Str
  | 0 => [[]]
  | N + 1 => (List.range 256).flatMap fun b => (streams N).map (UInt8.ofNat b :: ·)

/-- How many of the `256 ^ N` strings of `N` random bytes make the generator produce this. -/
def outcomes (gen : Str → Option Str) (N : Nat) (out : Str) : Nat := (streams N).countP fun bs => decide (gen bs = some out)

/-- Nothing is guessed with a chance above one in `K`. -/
def Unguessable (gen : Str → Option Str) (K : Nat) : Prop := ∀ N guess, outcomes gen N guess * K ≤ 256 ^ N

/-- All of these are produced equally often. -/
def Uniform (gen : Str → Option Str) (A : Str → Prop) : Prop := ∀ N x y, A x → A y → outcomes gen N x = outcomes gen N y

end Verif.Spec
