import Verif.Model.Verifiable
import Verif.Proofs.ClientAuth

/-! Facts on base-62 texts and big-endian bytes. -/
namespace Verif.Verifiable
open Verif.Jose (Out)

theorem val62_digit62 {n : Nat} (h : n < 62) : val62 (digit62 n) = some n :=
  (by decide +kernel : ∀ n : Fin 62, val62 (digit62 n) = some n.val) ⟨n, h⟩

theorem alnum_digit62 {n : Nat} (h : n < 62) : alnum (digit62 n) = true :=
  (by decide +kernel : ∀ n : Fin 62, alnum (digit62 n) = true) ⟨n, h⟩

theorem val62_alnum (b : UInt8) (h : alnum b = true) : ∃ n, val62 b = some n ∧ n < 62 ∧ digit62 n = b := by
  have key : ∀ n : Fin 256, alnum (UInt8.ofNat n.val) = true →
      (val62 (UInt8.ofNat n.val)).any (fun m => decide (m < 62 ∧ digit62 m = UInt8.ofNat n.val)) = true := by decide +kernel
  have := key ⟨b.toNat, b.toNat_lt⟩
  simp only [UInt8.ofNat_toNat] at this
  have := this h
  cases hv : val62 b with
  | none => rw [hv] at this; simp at this
  | some n => rw [hv] at this; exact ⟨n, rfl, by simpa using this⟩

theorem not_underscore {b : UInt8} (h : alnum b = true) : b ≠ 95 := by
  rintro rfl
  exact absurd h (by decide)

theorem parseAux_append (s t : Str) (acc : Nat) : parseAux acc (s ++ t) = (parseAux acc s).bind (parseAux · t) := by
  induction s generalizing acc with
  | nil => rfl
  | cons b r ih =>
    simp only [List.cons_append, parseAux]
    cases val62 b with
    | none => rfl
    | some v => exact ih _

theorem parseAux_zeros (k : Nat) (s : Str) : parseAux 0 (List.replicate k 48 ++ s) = parseAux 0 s := by
  induction k with
  | zero => rfl
  | succ k ih =>
    rw [List.replicate_succ, List.cons_append]
    show parseAux (0 * 62 + 0) (List.replicate k 48 ++ s) = _
    exact ih

/-- Texts of letters and digits have a value below the power of their length. -/
theorem parseAux_alnum (s : Str) (h : ∀ b ∈ s, alnum b = true) (acc : Nat) :
    ∃ v, parseAux acc s = some (acc * 62 ^ s.length + v) ∧ v < 62 ^ s.length := by
  induction s generalizing acc with
  | nil => exact ⟨0, by simp [parseAux], by simp⟩
  | cons b r ih =>
    obtain ⟨n, hn, hlt, _⟩ := val62_alnum b (h b (List.mem_cons_self ..))
    obtain ⟨v, hv, hvlt⟩ := ih (fun x hx => h x (List.mem_cons_of_mem _ hx)) (acc * 62 + n)
    refine ⟨n * 62 ^ r.length + v, ?_, ?_⟩
    · simp only [parseAux, hn, hv, List.length_cons, Option.some.injEq]
      rw [Nat.pow_succ, Nat.add_mul, Nat.mul_assoc acc, Nat.mul_comm 62, Nat.add_assoc]
    · rw [List.length_cons, Nat.pow_succ]
      calc n * 62 ^ r.length + v < n * 62 ^ r.length + 62 ^ r.length := by omega
        _ = (n + 1) * 62 ^ r.length := by rw [Nat.add_mul, Nat.one_mul]
        _ ≤ 62 * 62 ^ r.length := Nat.mul_le_mul_right _ hlt
        _ = 62 ^ r.length * 62 := Nat.mul_comm ..

/-- The text of a given length is determined by its value. -/
theorem parseAux_inj : ∀ {s t : Str}, (∀ b ∈ s, alnum b = true) → (∀ b ∈ t, alnum b = true) → s.length = t.length →
    parseAux 0 s = parseAux 0 t → s = t := by
  have gen : ∀ {s t : Str} (acc acc' : Nat), (∀ b ∈ s, alnum b = true) → (∀ b ∈ t, alnum b = true) → s.length = t.length →
      parseAux acc s = parseAux acc' t → s = t ∧ acc = acc' := by
    intro s
    induction s with
    | nil =>
      intro t acc acc' _ _ hl he
      cases t with
      | nil => exact ⟨rfl, by simpa [parseAux] using he⟩
      | cons => simp at hl
    | cons b r ih =>
      intro t acc acc' hs ht hl he
      cases t with
      | nil => simp at hl
      | cons b' r' =>
        obtain ⟨n, hn, hlt, hd⟩ := val62_alnum b (hs b (List.mem_cons_self ..))
        obtain ⟨n', hn', hlt', hd'⟩ := val62_alnum b' (ht b' (List.mem_cons_self ..))
        simp only [parseAux, hn, hn'] at he
        obtain ⟨e1, e2⟩ := ih _ _ (fun x hx => hs x (List.mem_cons_of_mem _ hx)) (fun x hx => ht x (List.mem_cons_of_mem _ hx))
          (by simpa using hl) he
        have e3 : n = n' := by omega
        subst e3
        exact ⟨by rw [e1, ← hd, ← hd'], by omega⟩
  intro s t hs ht hl he
  exact (gen 0 0 hs ht hl he).1

theorem text62_facts (n : Nat) : (∀ b ∈ text62 n, alnum b = true) ∧ parseAux 0 (text62 n) = some n ∧ text62 n ≠ [] := by
  induction n using text62.induct with
  | case1 n h =>
    rw [text62, if_pos h]
    refine ⟨by simpa using alnum_digit62 h, ?_, by simp⟩
    simp [parseAux, val62_digit62 h]
  | case2 n h ih =>
    obtain ⟨h1, h2, h3⟩ := ih
    have hm : n % 62 < 62 := Nat.mod_lt _ (by decide)
    rw [text62, if_neg h]
    refine ⟨?_, ?_, by simp⟩
    · intro b hb
      rcases List.mem_append.1 hb with hb | hb
      · exact h1 b hb
      · rw [List.mem_singleton.1 hb]; exact alnum_digit62 hm
    · rw [parseAux_append, h2]
      simp only [Option.bind_some, parseAux, val62_digit62 hm]
      congr 1
      omega

theorem text62_length {n k : Nat} (hk : 0 < k) (h : n < 62 ^ k) : (text62 n).length ≤ k := by
  induction n using text62.induct generalizing k with
  | case1 n hn => rw [text62, if_pos hn]; exact hk
  | case2 n hn ih =>
    rw [text62, if_neg hn]
    rcases k with _ | _ | k
    · omega
    · omega
    · rw [List.length_append, List.length_singleton]
      have := ih (k := k + 1) (by omega) (by
        rw [Nat.pow_succ] at h
        exact Nat.div_lt_of_lt_mul (by rw [Nat.mul_comm]; exact h))
      omega

theorem padLeft_facts (s : Str) (k : Nat) : ((∀ b ∈ s, alnum b = true) → ∀ b ∈ padLeft s k, alnum b = true) ∧
    parseAux 0 (padLeft s k) = parseAux 0 s ∧ (s.length ≤ k → (padLeft s k).length = k) ∧
    (k ≤ s.length → padLeft s k = s) ∧ (s ≠ [] → padLeft s k ≠ []) := by
  unfold padLeft
  split
  · rename_i h
    refine ⟨?_, parseAux_zeros _ _, ?_, fun h' => by omega, fun h => by simp [h]⟩
    · intro hs b hb
      rcases List.mem_append.1 hb with hb | hb
      · rw [(List.mem_replicate.1 hb).2]; decide
      · exact hs b hb
    · intro _
      rw [List.length_append, List.length_replicate]
      omega
  · exact ⟨id, rfl, fun h => by omega, fun _ => rfl, id⟩

theorem parse62_alnum {s : Str} (hne : s ≠ []) (h : ∀ b ∈ s, alnum b = true) :
    ∃ v, parse62 s = some v ∧ parseAux 0 s = some v ∧ v < 62 ^ s.length := by
  obtain ⟨v, h1, h2⟩ := parseAux_alnum s h 0
  rw [Nat.zero_mul, Nat.zero_add] at h1
  exact ⟨v, by simp [parse62, hne, h1], h1, h2⟩

/-! ### Bytes -/

theorem natBytes_length (k n : Nat) : (natBytes k n).length = k := by
  induction k generalizing n with
  | zero => rfl
  | succ k ih => simp [natBytes, ih]

theorem bytesNat_snoc (s : Str) (b : UInt8) : bytesNat (s ++ [b]) = bytesNat s * 256 + b.toNat := by
  simp [bytesNat]

theorem bytesNat_natBytes {k n : Nat} (h : n < 256 ^ k) : bytesNat (natBytes k n) = n := by
  induction k generalizing n with
  | zero => simp [natBytes, bytesNat] at *; omega
  | succ k ih =>
    rw [natBytes, bytesNat_snoc, ih (Nat.div_lt_of_lt_mul (by rw [Nat.mul_comm, ← Nat.pow_succ]; exact h))]
    have : (UInt8.ofNat (n % 256)).toNat = n % 256 := by simp
    rw [this]
    omega

theorem rev_cases {s : Str} : s = [] ∨ ∃ r b, s = r ++ [b] := by
  rcases List.eq_nil_or_concat s with h | ⟨r, b, h⟩
  · exact Or.inl h
  · exact Or.inr ⟨r, b, by simpa using h⟩

theorem natBytes_bytesNat (k : Nat) : ∀ s : Str, s.length = k → natBytes k (bytesNat s) = s ∧ bytesNat s < 256 ^ k := by
  induction k with
  | zero =>
    intro s h
    obtain rfl := List.length_eq_zero_iff.1 h
    exact ⟨rfl, by simp [bytesNat]⟩
  | succ k ih =>
    intro s h
    rcases rev_cases (s := s) with rfl | ⟨r, b, rfl⟩
    · simp at h
    · obtain ⟨h1, h2⟩ := ih r (by simpa using h)
      have hb : b.toNat < 256 := b.toNat_lt
      rw [bytesNat_snoc, natBytes]
      have e1 : (bytesNat r * 256 + b.toNat) / 256 = bytesNat r := by omega
      have e2 : (bytesNat r * 256 + b.toNat) % 256 = b.toNat := by omega
      rw [e1, e2, h1, UInt8.ofNat_toNat]
      refine ⟨rfl, ?_⟩
      rw [Nat.pow_succ]
      omega

end Verif.Verifiable
