import Verif.Model.Lib
import Verif.Proofs.Strings

namespace Verif.Go

/-! ### base64 -/

theorem b64Val_char {n : Nat} (h : n < 64) : b64Val (b64Char n) = some n := by
  revert n; decide

theorem b64Char_noLine {n : Nat} (h : n < 64) : (b64Char n != 10 && b64Char n != 13) = true := by
  revert n; decide

/-- The 6-bit values of the encoding. -/
def b64Nums : Str → List Nat
  | [] => []
  | [a] => [a.toNat / 4, a.toNat % 4 * 16]
  | [a, b] => [a.toNat / 4, a.toNat % 4 * 16 + b.toNat / 16, b.toNat % 16 * 4]
  | a :: b :: c :: rest =>
    a.toNat / 4 :: (a.toNat % 4 * 16 + b.toNat / 16) :: (b.toNat % 16 * 4 + c.toNat / 64) :: (c.toNat % 64) :: b64Nums rest

theorem b64_eq (s : Str) : b64 s = (b64Nums s).map b64Char := by
  fun_induction b64Nums s <;> simp_all [b64]

theorem b64Nums_lt (s : Str) : ∀ n ∈ b64Nums s, n < 64 := by
  fun_induction b64Nums s with
  | case1 => simp
  | case2 a => have := a.toNat_lt; simp; omega
  | case3 a b => have := a.toNat_lt; have := b.toNat_lt; simp; omega
  | case4 a b c rest ih =>
    have := a.toNat_lt; have := b.toNat_lt; have := c.toNat_lt
    simp only [List.mem_cons]
    rintro n (rfl | rfl | rfl | rfl | h)
    · omega
    · omega
    · omega
    · omega
    · exact ih n h

theorem mapM_val {l : List Nat} (h : ∀ n ∈ l, n < 64) : (l.map b64Char).mapM b64Val = some l := by
  induction l with
  | nil => rfl
  | cons n l ih =>
    simp only [List.map_cons, List.mapM_cons, b64Val_char (h n (by simp)), ih (fun m hm => h m (by simp [hm]))]
    rfl

theorem stripLines_b64 {l : List Nat} (h : ∀ n ∈ l, n < 64) : stripLines (l.map b64Char) = l.map b64Char := by
  unfold stripLines
  rw [List.filter_eq_self]
  intro b hb
  obtain ⟨n, hn, rfl⟩ := List.mem_map.1 hb
  exact b64Char_noLine (h n hn)

theorem ofNat_toNat (a : UInt8) {n : Nat} (h : n = a.toNat) : UInt8.ofNat n = a := by subst h; simp

theorem b64Groups_nums (s : Str) : b64Groups (b64Nums s) = some s := by
  fun_induction b64Nums s with
  | case1 => rfl
  | case2 a =>
    have := a.toNat_lt
    simp only [b64Groups, b64Tail]
    rw [ofNat_toNat a (by omega)]
  | case3 a b =>
    have := a.toNat_lt; have := b.toNat_lt
    simp only [b64Groups, b64Tail]
    rw [ofNat_toNat a (by omega), ofNat_toNat b (by omega)]
  | case4 a b c rest ih =>
    have := a.toNat_lt; have := b.toNat_lt; have := c.toNat_lt
    simp only [b64Groups, ih, Option.map_some]
    rw [ofNat_toNat a (by omega), ofNat_toNat b (by omega), ofNat_toNat c (by omega)]

/-- Decoding inverts encoding. -/
theorem b64Decode_b64 (s : Str) : b64Decode (b64 s) = some s := by
  unfold b64Decode
  rw [b64_eq, stripLines_b64 (b64Nums_lt s), mapM_val (b64Nums_lt s)]
  exact b64Groups_nums s

theorem b64_injective : Function.Injective b64 := by
  intro a b h
  have := b64Decode_b64 a
  rw [h, b64Decode_b64] at this
  simpa using this.symm

theorem b64_length (s : Str) : (b64 s).length = (s.length * 4 + 2) / 3 := by
  fun_induction b64 s with
  | case1 => rfl
  | case2 => simp
  | case3 => simp
  | case4 a b c rest ih => simp only [List.length_cons, ih]; omega

end Verif.Go

namespace Verif.Lib

/-! ### Comparison -/

theorem constantTimeEq_spec (x y : UInt32) : constantTimeEq x y = if x = y then 1 else 0 := by
  unfold constantTimeEq
  by_cases h : x = y
  · subst h; simp
  · rw [if_neg h]
    have hz : x ^^^ y ≠ 0 := by
      intro hz
      exact h (UInt32.xor_eq_zero_iff.1 hz)
    generalize x ^^^ y = z at hz
    have h1 : 1 ≤ z.toNat := by
      rcases Nat.eq_zero_or_pos z.toNat with h0 | h0
      · exact absurd (UInt32.toNat_inj.1 h0) hz
      · exact h0
    have h2 := z.toNat_lt
    rw [UInt64.toNat_shiftRight, UInt64.toNat_sub_of_le]
    · simp [Nat.shiftRight_eq_div_pow]; omega
    · simp [UInt64.le_iff_toNat_le]; omega

theorem constantTimeByteEq_spec (x y : UInt8) : constantTimeByteEq x y = if x = y then 1 else 0 := by
  unfold constantTimeByteEq
  by_cases h : x = y
  · subst h; simp
  · rw [if_neg h]
    have hz : x ^^^ y ≠ 0 := by
      intro hz
      exact h (UInt8.xor_eq_zero_iff.1 hz)
    generalize x ^^^ y = z at hz
    have h1 : 1 ≤ z.toNat := by
      rcases Nat.eq_zero_or_pos z.toNat with h0 | h0
      · exact absurd (UInt8.toNat_inj.1 h0) hz
      · exact h0
    have h2 := z.toNat_lt
    rw [UInt32.toNat_shiftRight, UInt32.toNat_sub_of_le]
    · simp [Nat.shiftRight_eq_div_pow]; omega
    · simp [UInt32.le_iff_toNat_le]; omega

theorem orXor_zero : ∀ {x y : Str} {v : UInt8}, x.length = y.length → (orXor v x y = 0 ↔ v = 0 ∧ x = y)
  | [], [], v, _ => by simp [orXor]
  | a :: as, b :: bs, v, h => by
    have ih := orXor_zero (x := as) (y := bs) (v := v ||| (a ^^^ b)) (by simpa using h)
    simp only [orXor, ih, List.cons.injEq, UInt8.or_eq_zero_iff, UInt8.xor_eq_zero_iff]
    constructor
    · rintro ⟨⟨h1, h2⟩, h3⟩; exact ⟨h1, h2, h3⟩
    · rintro ⟨h1, h2, h3⟩; exact ⟨⟨h1, h2⟩, h3⟩
  | [], _ :: _, _, h => by simp at h
  | _ :: _, [], _, h => by simp at h

theorem constantTimeCompare_spec (x y : Str) : constantTimeCompare x y = if x = y then 1 else 0 := by
  unfold constantTimeCompare
  by_cases hl : x.length = y.length
  · rw [if_neg (by simpa using hl), constantTimeByteEq_spec]
    by_cases h : x = y
    · rw [if_pos h, if_pos ((orXor_zero hl).2 ⟨rfl, h⟩)]
    · rw [if_neg h, if_neg (fun hz => h ((orXor_zero hl).1 hz).2)]
  · rw [if_pos (by simpa using hl), if_neg (fun h => hl (by rw [h]))]

/-! ### Generators -/

theorem newLenChars_length (rnd : Nat → Nat) (n : Nat) (chars : Str) : (newLenChars rnd n chars).length = n := by
  simp [newLenChars]

theorem newLenChars_mem {rnd : Nat → Nat} {n : Nat} {chars : Str} (hc : chars ≠ []) {b : UInt8}
    (h : b ∈ newLenChars rnd n chars) : b ∈ chars := by
  simp only [newLenChars, List.mem_map, List.mem_range] at h
  obtain ⟨i, _, rfl⟩ := h
  have hlt : rnd i % chars.length < chars.length := Nat.mod_lt _ (List.length_pos_iff.2 hc)
  rw [List.getD_eq_getElem?_getD, List.getElem?_eq_getElem hlt]
  simp

end Verif.Lib
