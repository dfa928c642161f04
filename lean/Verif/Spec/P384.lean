/-!
The curve P-384 (FIPS 186-5 / SP 800-186, section 3.2.1.4) and the multiples of its generator,
by the formulas of SEC 1, section 2.2.1. Numbers stand for residues modulo `p`.
-/
namespace Verif.Spec.P384

def p : Nat := 2 ^ 384 - 2 ^ 128 - 2 ^ 96 + 2 ^ 32 - 1
def b : Nat := 0xb3312fa7e23ee7e4988e056be3f82d19181d9c6efe8141120314088f5013875ac656398d8a2ed19d2a85c8edd3ec2aef
def gx : Nat := 0xaa87ca22be8b05378eb1c71ef320ad746e1d3b628ba79b9859f741e082542a385502f25dbf55296c3a545e3872760ab7
def gy : Nat := 0x3617de4a96262c6f5d9e98bf9292dc29f8f41dbd289a147ce9da3113b5f0b8c00a60b1ce1d7e819d7a431d7c90ea0e5f

/-- `y² = x³ - 3x + b`. -/
def OnCurve (x y : Nat) : Prop := x < p ∧ y < p ∧ (y * y + 3 * x) % p = (x * x * x + b) % p

instance (x y : Nat) : Decidable (OnCurve x y) := inferInstanceAs (Decidable (_ ∧ _ ∧ _))

/-- The third point on the line of slope `s` through `(x, y)` and a point with the first
coordinate `u`, mirrored. -/
def Third (s x y u x' y' : Nat) : Prop :=
  x' < p ∧ y' < p ∧ (x' + x + u) % p = (s * s) % p ∧ (y' + y + s * x') % p = (s * x) % p

instance (s x y u x' y' : Nat) : Decidable (Third s x y u x' y') := inferInstanceAs (Decidable (_ ∧ _ ∧ _ ∧ _))

/-- `(x, y)` is the generator taken `n` times. -/
inductive Multiple : Nat → Nat → Nat → Prop
  | one : Multiple 1 gx gy
  | double {n x y s x' y'} : Multiple n x y → (2 * y) % p ≠ 0 → (s * (2 * y) + 3) % p = (3 * x * x) % p →
      Third s x y x x' y' → Multiple (2 * n) x' y'
  | next {n x y s x' y'} : Multiple n x y → x ≠ gx → (s * x + gy) % p = (s * gx + y) % p →
      Third s x y gx x' y' → Multiple (n + 1) x' y'

end Verif.Spec.P384
