import Verif.Spec.P384

/-!
Computing multiples of the generator.
-/
namespace Verif.Spec.P384

/-- Euclid's algorithm; `s` and `s'` are the factors of the number to invert. -/
def euclid : Nat → Nat → Nat → Nat → Nat → Nat
  | 0, _, _, s, _ => s
  | n + 1, r, r', s, s' =>
    match r' % r with
    | 0 => s
    | q + 1 => euclid n (q + 1) r ((s' + r' / r * (p - s)) % p) s

/-- A number that is the inverse where there is one; nothing is proved about it. -/
def inv (a : Nat) : Nat := euclid 600 (a % p) p 1 0

/-- The third point for a slope. -/
def third (s x y u : Nat) : Nat × Nat :=
  let x' := (s * s + (2 * p - x - u)) % p
  (x', (s * x + (2 * p - y) + s * (p - x')) % p)

/-- Twice `n` times the generator. -/
def double (n x y : Nat) : Option (Nat × Nat × Nat) :=
  let s := (3 * x * x + (p - 3)) * inv (2 * y) % p
  let q := third s x y x
  if (2 * y) % p ≠ 0 ∧ (s * (2 * y) + 3) % p = (3 * x * x) % p ∧ Third s x y x q.1 q.2 then some (2 * n, q.1, q.2) else none

/-- Once more the generator. -/
def next (n x y : Nat) : Option (Nat × Nat × Nat) :=
  let s := (y + (p - gy)) * inv (x + (p - gx)) % p
  let q := third s x y gx
  if x ≠ gx ∧ (s * x + gy) % p = (s * gx + y) % p ∧ Third s x y gx q.1 q.2 then some (n + 1, q.1, q.2) else none

def walk : List Bool → Nat → Nat → Nat → Option (Nat × Nat × Nat)
  | [], n, x, y => some (n, x, y)
  | false :: l, n, x, y => match double n x y with
    | none => none
    | some (n, x, y) => walk l n x y
  | true :: l, n, x, y => match double n x y with
    | none => none
    | some (n, x, y) => match next n x y with
      | none => none
      | some (n, x, y) => walk l n x y

theorem double_multiple {n x y n' x' y' : Nat} (hm : Multiple n x y) (h : double n x y = some (n', x', y')) : Multiple n' x' y' := by
  unfold double at h
  simp only at h
  split at h
  · rename_i hc
    simp only [Option.some.injEq, Prod.mk.injEq] at h
    obtain ⟨rfl, rfl, rfl⟩ := h
    exact .double hm hc.1 hc.2.1 hc.2.2
  · cases h

theorem next_multiple {n x y n' x' y' : Nat} (hm : Multiple n x y) (h : next n x y = some (n', x', y')) : Multiple n' x' y' := by
  unfold next at h
  simp only at h
  split at h
  · rename_i hc
    simp only [Option.some.injEq, Prod.mk.injEq] at h
    obtain ⟨rfl, rfl, rfl⟩ := h
    exact .next hm hc.1 hc.2.1 hc.2.2
  · cases h

theorem walk_multiple : ∀ {l : List Bool} {n x y n' x' y' : Nat}, Multiple n x y → walk l n x y = some (n', x', y') → Multiple n' x' y'
  | [], _, _, _, _, _, _, hm, h => by
    simp only [walk, Option.some.injEq, Prod.mk.injEq] at h
    obtain ⟨rfl, rfl, rfl⟩ := h
    exact hm
  | false :: l, n, x, y, _, _, _, hm, h => by
    unfold walk at h
    cases hd : double n x y with
    | none => rw [hd] at h; cases h
    | some q => rw [hd] at h; exact walk_multiple (double_multiple hm hd) h
  | true :: l, n, x, y, _, _, _, hm, h => by
    unfold walk at h
    cases hd : double n x y with
    | none => rw [hd] at h; cases h
    | some q =>
      rw [hd] at h
      simp only at h
      cases hn : next q.1 q.2.1 q.2.2 with
      | none => rw [hn] at h; cases h
      | some r => rw [hn] at h; exact walk_multiple (next_multiple (double_multiple hm hd) hn) h

/-- The binary digits below the first one. -/
def bits : Nat → Nat → List Bool → List Bool
  | 0, _, l => l
  | k + 1, n, l => if n < 2 then l else bits k (n / 2) (decide (n % 2 = 1) :: l)

theorem multiple_of {n x y : Nat} (h : walk (bits 400 n []) 1 gx gy = some (n, x, y)) : Multiple n x y := walk_multiple .one h

end Verif.Spec.P384
