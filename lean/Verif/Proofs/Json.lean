import Verif.Model.Json
import Verif.Spec.Json
import Verif.Proofs.Utf8
import Verif.Proofs.RequestObject

/-!
UTF-8 as Go decodes it and as the characters are encoded, and JSON texts: no text stands for two
values.
-/
namespace Verif.Json
open Verif.Spec.Json

/-! ### UTF-8 -/

theorem ofNat_toNat {n : Nat} (h : n < 256) : (UInt8.ofNat n).toNat = n := by
  rw [UInt8.toNat_ofNat']
  omega

theorem eq_ofNat {b : UInt8} {n : Nat} (h : b.toNat = n) : b = UInt8.ofNat n := by
  rw [← h]
  exact (UInt8.ofNat_toNat).symm

/-- The bytes of a character. -/
theorem encode_cases (c : Char) :
    (c.toNat < 0x80 ∧ ∃ b0 : UInt8, String.utf8EncodeChar c = [b0] ∧ b0.toNat = c.toNat) ∨
    (0x80 ≤ c.toNat ∧ c.toNat < 0x800 ∧ ∃ b0 b1 : UInt8, String.utf8EncodeChar c = [b0, b1] ∧
      b0.toNat = 0xC0 + c.toNat / 64 ∧ b1.toNat = 0x80 + c.toNat % 64) ∨
    (0x800 ≤ c.toNat ∧ c.toNat < 0x10000 ∧ ∃ b0 b1 b2 : UInt8, String.utf8EncodeChar c = [b0, b1, b2] ∧
      b0.toNat = 0xE0 + c.toNat / 4096 ∧ b1.toNat = 0x80 + c.toNat / 64 % 64 ∧ b2.toNat = 0x80 + c.toNat % 64) ∨
    (0x10000 ≤ c.toNat ∧ c.toNat < 0x110000 ∧ ∃ b0 b1 b2 b3 : UInt8, String.utf8EncodeChar c = [b0, b1, b2, b3] ∧
      b0.toNat = 0xF0 + c.toNat / 262144 ∧ b1.toNat = 0x80 + c.toNat / 4096 % 64 ∧ b2.toNat = 0x80 + c.toNat / 64 % 64 ∧
      b3.toNat = 0x80 + c.toNat % 64) := by
  have hv : c.toNat < 0xD800 ∨ 0xDFFF < c.toNat ∧ c.toNat < 0x110000 := c.valid
  have hu : String.utf8EncodeChar c = if c.toNat ≤ 0x7f then [UInt8.ofNat c.toNat] else
      if c.toNat ≤ 0x7ff then [UInt8.ofNat (c.toNat / 64 % 0x20 + 0xc0), UInt8.ofNat (c.toNat % 0x40 + 0x80)] else
      if c.toNat ≤ 0xffff then [UInt8.ofNat (c.toNat / 4096 % 0x10 + 0xe0), UInt8.ofNat (c.toNat / 64 % 0x40 + 0x80),
        UInt8.ofNat (c.toNat % 0x40 + 0x80)] else
      [UInt8.ofNat (c.toNat / 262144 % 0x08 + 0xf0), UInt8.ofNat (c.toNat / 4096 % 0x40 + 0x80),
        UInt8.ofNat (c.toNat / 64 % 0x40 + 0x80), UInt8.ofNat (c.toNat % 0x40 + 0x80)] := rfl
  by_cases h1 : c.toNat ≤ 0x7f
  · rw [if_pos h1] at hu
    exact .inl ⟨by omega, _, hu, ofNat_toNat (by omega)⟩
  rw [if_neg h1] at hu
  by_cases h2 : c.toNat ≤ 0x7ff
  · rw [if_pos h2] at hu
    refine .inr (.inl ⟨by omega, by omega, _, _, hu, ?_, ?_⟩) <;> rw [ofNat_toNat (by omega)] <;> omega
  rw [if_neg h2] at hu
  by_cases h3 : c.toNat ≤ 0xffff
  · rw [if_pos h3] at hu
    refine .inr (.inr (.inl ⟨by omega, by omega, _, _, _, hu, ?_, ?_, ?_⟩)) <;> rw [ofNat_toNat (by omega)] <;> omega
  rw [if_neg h3] at hu
  refine .inr (.inr (.inr ⟨by omega, by omega, _, _, _, _, hu, ?_, ?_, ?_, ?_⟩)) <;> rw [ofNat_toNat (by omega)] <;> omega

theorem char_ext {c d : Char} (h : c.toNat = d.toNat) : c = d := Char.ext (UInt32.toNat_inj.1 h)

theorem encode_ne (c : Char) : String.utf8EncodeChar c ≠ [] := by
  rcases encode_cases c with ⟨_, _, h, _⟩ | ⟨_, _, _, _, h, _⟩ | ⟨_, _, _, _, _, h, _⟩ | ⟨_, _, _, _, _, _, h, _⟩ <;> simp [h]

/-- The bytes of a character determine it. -/
theorem encode_cancel {c d : Char} {x y : Str} (h : String.utf8EncodeChar c ++ x = String.utf8EncodeChar d ++ y) :
    c = d ∧ x = y := by
  suffices c = d by
    subst this
    exact ⟨rfl, List.append_cancel_left h⟩
  apply char_ext
  rcases encode_cases c with ⟨_, _, hc, _⟩ | ⟨_, _, _, _, hc, _, _⟩ | ⟨_, _, _, _, _, hc, _, _, _⟩ |
      ⟨_, _, _, _, _, _, hc, _, _, _, _⟩ <;>
    rcases encode_cases d with ⟨_, _, hd, _⟩ | ⟨_, _, _, _, hd, _, _⟩ | ⟨_, _, _, _, _, hd, _, _, _⟩ |
      ⟨_, _, _, _, _, _, hd, _, _, _, _⟩ <;>
    simp only [hc, hd, List.cons_append, List.nil_append, List.cons.injEq, ← UInt8.toNat_inj] at h <;> omega

/-- The first byte of a character: the byte itself in ASCII, and another one otherwise. -/
theorem encode_head (c : Char) : ∃ b t, String.utf8EncodeChar c = b :: t ∧
    (c.toNat < 0x80 → b.toNat = c.toNat ∧ t = []) ∧ (0x80 ≤ c.toNat → 0x80 ≤ b.toNat ∧ t ≠ [] ∧ ∀ x ∈ t, 0x80 ≤ x.toNat) := by
  rcases encode_cases c with ⟨_, _, hc, _⟩ | ⟨_, _, _, _, hc, _, _⟩ | ⟨_, _, _, _, _, hc, _, _, _⟩ |
      ⟨_, _, _, _, _, _, hc, _, _, _, _⟩ <;> refine ⟨_, _, hc, fun _ => ?_, fun _ => ?_⟩ <;>
    first
      | omega
      | (refine ⟨by omega, ?_⟩; first | rfl | (refine ⟨by simp, ?_⟩; intro x hx; simp at hx; rcases hx with rfl | rfl | rfl <;> omega) |
          (refine ⟨by simp, ?_⟩; intro x hx; simp at hx; rcases hx with rfl | rfl <;> omega) |
          (refine ⟨by simp, ?_⟩; intro x hx; simp at hx; subst hx; omega))

theorem inRange_of {lo hi b : UInt8} (h : lo.toNat ≤ b.toNat) (h' : b.toNat ≤ hi.toNat) : Go.inRange lo hi b = true := by
  simp [Go.inRange, UInt8.le_iff_toNat_le, h, h']

theorem not_inRange {lo hi b : UInt8} (h : b.toNat < lo.toNat ∨ hi.toNat < b.toNat) : Go.inRange lo hi b = false := by
  rw [← Bool.not_eq_true]
  intro hr
  have := Go.inRange_toNat hr
  omega

/-- Go decodes a character as what it is. -/
theorem runeLen_encode (c : Char) (r : Str) :
    Go.runeLen (String.utf8EncodeChar c ++ r) = (String.utf8EncodeChar c).length := by
  have hv : c.toNat < 0xD800 ∨ 0xDFFF < c.toNat ∧ c.toNat < 0x110000 := c.valid
  rcases encode_cases c with ⟨_, b0, hc, k0⟩ | ⟨_, _, b0, b1, hc, k0, k1⟩ | ⟨_, _, b0, b1, b2, hc, k0, k1, k2⟩ |
      ⟨_, _, b0, b1, b2, b3, hc, k0, k1, k2, k3⟩
  · rw [hc]
    exact Go.runeLen_byte (UInt8.lt_iff_toNat_lt.2 (by rw [k0]; assumption)) r
  · have hb : ¬ b0 < 0x80 := fun h => by
      have : b0.toNat < 0x80 := UInt8.lt_iff_toNat_lt.1 h
      omega
    have h2 : Go.inRange 0xC2 0xDF b0 = true := inRange_of (by show 0xC2 ≤ _; omega) (by show _ ≤ 0xDF; omega)
    have h3 : Go.inRange 0x80 0xBF b1 = true := inRange_of (by show 0x80 ≤ _; omega) (by show _ ≤ 0xBF; omega)
    simp [hc, Go.runeLen, hb, h2, h3]
  · have hb : ¬ b0 < 0x80 := fun h => by
      have : b0.toNat < 0x80 := UInt8.lt_iff_toNat_lt.1 h
      omega
    have h2 : Go.inRange 0xC2 0xDF b0 = false := not_inRange (.inr (by show 0xDF < _; omega))
    have h3 : Go.inRange 0xE0 0xEF b0 = true := inRange_of (by show 0xE0 ≤ _; omega) (by show _ ≤ 0xEF; omega)
    have h5 : Go.inRange 0x80 0xBF b2 = true := inRange_of (by show 0x80 ≤ _; omega) (by show _ ≤ 0xBF; omega)
    have h4 : Go.inRange (if b0 = 0xE0 then 0xA0 else 0x80) (if b0 = 0xED then 0x9F else 0xBF) b1 = true := by
      refine inRange_of ?_ ?_
      · split
        · rename_i h
          have : b0.toNat = 0xE0 := congrArg UInt8.toNat h
          show 0xA0 ≤ _
          omega
        · show 0x80 ≤ _
          omega
      · split
        · rename_i h
          have : b0.toNat = 0xED := congrArg UInt8.toNat h
          show _ ≤ 0x9F
          omega
        · show _ ≤ 0xBF
          omega
    simp [hc, Go.runeLen, hb, h2, h3, h4, h5]
  · have hb : ¬ b0 < 0x80 := fun h => by
      have : b0.toNat < 0x80 := UInt8.lt_iff_toNat_lt.1 h
      omega
    have h2 : Go.inRange 0xC2 0xDF b0 = false := not_inRange (.inr (by show 0xDF < _; omega))
    have h3 : Go.inRange 0xE0 0xEF b0 = false := not_inRange (.inr (by show 0xEF < _; omega))
    have h6 : Go.inRange 0xF0 0xF4 b0 = true := inRange_of (by show 0xF0 ≤ _; omega) (by show _ ≤ 0xF4; omega)
    have h5 : Go.inRange 0x80 0xBF b2 = true := inRange_of (by show 0x80 ≤ _; omega) (by show _ ≤ 0xBF; omega)
    have h7 : Go.inRange 0x80 0xBF b3 = true := inRange_of (by show 0x80 ≤ _; omega) (by show _ ≤ 0xBF; omega)
    have h4 : Go.inRange (if b0 = 0xF0 then 0x90 else 0x80) (if b0 = 0xF4 then 0x8F else 0xBF) b1 = true := by
      refine inRange_of ?_ ?_
      · split
        · rename_i h
          have : b0.toNat = 0xF0 := congrArg UInt8.toNat h
          show 0x90 ≤ _
          omega
        · show 0x80 ≤ _
          omega
      · split
        · rename_i h
          have : b0.toNat = 0xF4 := congrArg UInt8.toNat h
          show _ ≤ 0x8F
          omega
        · show _ ≤ 0xBF
          omega
    simp [hc, Go.runeLen, hb, h2, h3, h4, h5, h6, h7]

theorem runeOf_encode (c : Char) : Go.runeOf (String.utf8EncodeChar c) = c.toNat := by
  rcases encode_cases c with ⟨_, b0, hc, k0⟩ | ⟨_, _, b0, b1, hc, k0, k1⟩ | ⟨_, _, b0, b1, b2, hc, k0, k1, k2⟩ |
      ⟨_, _, b0, b1, b2, b3, hc, k0, k1, k2, k3⟩
  · rw [hc, Go.runeOf_byte (UInt8.lt_iff_toNat_lt.2 (by rw [k0]; assumption)), k0]
  · rw [hc]
    show (b0.toNat - 0xC0) * 64 + (b1.toNat - 0x80) = _
    omega
  · rw [hc]
    show ((b0.toNat - 0xE0) * 64 + (b1.toNat - 0x80)) * 64 + (b2.toNat - 0x80) = _
    omega
  · rw [hc]
    show (((b0.toNat - 0xF0) * 64 + (b1.toNat - 0x80)) * 64 + (b2.toNat - 0x80)) * 64 + (b3.toNat - 0x80) = _
    omega

theorem chunks_encode (c : Char) (r : Str) : Go.chunks (String.utf8EncodeChar c ++ r) = String.utf8EncodeChar c :: Go.chunks r := by
  rw [Go.chunks_ne (by simp [encode_ne]), runeLen_encode]
  simp

/-- UTF-8 text is read character by character. -/
theorem chunks_chars : ∀ cs : List Char, Go.chunks (cs.flatMap String.utf8EncodeChar) = cs.map String.utf8EncodeChar
  | [] => rfl
  | c :: cs => by rw [List.flatMap_cons, chunks_encode, chunks_chars cs, List.map_cons]

theorem runes_chars (cs : List Char) : Go.runes (cs.flatMap String.utf8EncodeChar) = cs.map Char.toNat := by
  unfold Go.runes
  rw [chunks_chars, List.map_map]
  exact List.map_congr_left fun c _ => runeOf_encode c

theorem char_of {n : Nat} (h : n < 0xD800 ∨ 0xDFFF < n ∧ n < 0x110000) : ∃ c : Char, c.toNat = n :=
  ⟨Char.ofNat n, by
    rw [Char.ofNat, dif_pos h]
    show (Char.ofNatAux n h).toNat = n
    rfl⟩

/-- What `range` yields: a character, or a byte outside UTF-8. -/
theorem chunk_cases {s x : Str} (h : x ∈ Go.chunks s) :
    (∃ c : Char, x = String.utf8EncodeChar c) ∨ (∃ b : UInt8, x = [b] ∧ ¬ b < 0x80) := by
  have key : ∀ {x : Str} {n : Nat}, (n < 0xD800 ∨ 0xDFFF < n ∧ n < 0x110000) →
      (∀ c : Char, c.toNat = n → x = String.utf8EncodeChar c) → ∃ c : Char, x = String.utf8EncodeChar c := by
    intro x n hn hx
    obtain ⟨c, hc⟩ := char_of hn
    exact ⟨c, hx c hc⟩
  obtain ⟨t, ht, rfl⟩ := Go.chunks_mem h
  obtain ⟨b0, r, rfl⟩ := List.exists_cons_of_ne_nil ht
  by_cases hb : b0 < 0x80
  · rw [Go.runeLen_byte hb]
    have hn : b0.toNat < 0x80 := UInt8.lt_iff_toNat_lt.1 hb
    refine .inl (key (n := b0.toNat) (by omega) fun c hc => ?_)
    rcases encode_cases c with ⟨_, a0, he, k0⟩ | ⟨_, _, a0, a1, he, _⟩ | ⟨_, _, a0, a1, a2, he, _⟩ | ⟨_, _, a0, a1, a2, a3, he, _⟩
    · rw [he, List.take_succ_cons, List.take_zero, UInt8.toNat_inj.1 (k0.trans hc)]
    all_goals omega
  have one : Go.runeLen (b0 :: r) = 1 → (∃ b : UInt8, (b0 :: r).take (Go.runeLen (b0 :: r)) = [b] ∧ ¬ b < 0x80) :=
    fun h => ⟨b0, by rw [h]; rfl, hb⟩
  by_cases h2 : Go.inRange 0xC2 0xDF b0 = true
  · cases r with
    | nil => exact .inr (one (by simp [Go.runeLen, hb, h2]))
    | cons b1 r' =>
      by_cases h : Go.inRange 0x80 0xBF b1 = true
      · have hl : Go.runeLen (b0 :: b1 :: r') = 2 := by simp [Go.runeLen, hb, h2, h]
        have k2 : 0xC2 ≤ b0.toNat ∧ b0.toNat ≤ 0xDF := Go.inRange_toNat h2
        have k : 0x80 ≤ b1.toNat ∧ b1.toNat ≤ 0xBF := Go.inRange_toNat h
        rw [hl]
        refine .inl (key (n := (b0.toNat - 0xC0) * 64 + (b1.toNat - 0x80)) (by omega) fun c hc => ?_)
        rcases encode_cases c with ⟨_, a0, he, _⟩ | ⟨_, _, a0, a1, he, m0, m1⟩ | ⟨_, _, a0, a1, a2, he, _⟩ | ⟨_, _, a0, a1, a2, a3, he, _⟩
        · omega
        · have e0 : a0 = b0 := UInt8.toNat_inj.1 (by omega)
          have e1 : a1 = b1 := UInt8.toNat_inj.1 (by omega)
          rw [he, e0, e1]
          rfl
        all_goals omega
      · exact .inr (one (by simp [Go.runeLen, hb, h2, h]))
  by_cases h3 : Go.inRange 0xE0 0xEF b0 = true
  · rcases r with _ | ⟨b1, _ | ⟨b2, r'⟩⟩
    · exact .inr (one (by simp [Go.runeLen, hb, h2, h3]))
    · exact .inr (one (by simp [Go.runeLen, hb, h2, h3]))
    · by_cases h : Go.inRange (if b0 = 0xE0 then 0xA0 else 0x80) (if b0 = 0xED then 0x9F else 0xBF) b1 = true ∧
          Go.inRange 0x80 0xBF b2 = true
      · have hl : Go.runeLen (b0 :: b1 :: b2 :: r') = 3 := by simp [Go.runeLen, hb, h2, h3, h]
        have k3 : 0xE0 ≤ b0.toNat ∧ b0.toNat ≤ 0xEF := Go.inRange_toNat h3
        have k2 : 0x80 ≤ b2.toNat ∧ b2.toNat ≤ 0xBF := Go.inRange_toNat h.2
        have k1 : 0x80 ≤ b1.toNat ∧ b1.toNat ≤ 0xBF ∧ (b0.toNat = 0xE0 → 0xA0 ≤ b1.toNat) ∧ (b0.toNat = 0xED → b1.toNat ≤ 0x9F) := by
          have k := Go.inRange_toNat h.1
          by_cases e : b0 = 0xE0
          · subst e
            have k : 0xA0 ≤ b1.toNat ∧ b1.toNat ≤ 0xBF := k
            refine ⟨by omega, k.2, fun _ => k.1, fun h => absurd h (by decide)⟩
          by_cases e' : b0 = 0xED
          · subst e'
            have k : 0x80 ≤ b1.toNat ∧ b1.toNat ≤ 0x9F := k
            refine ⟨k.1, by omega, fun h => absurd h (by decide), fun _ => k.2⟩
          rw [if_neg e, if_neg e'] at k
          exact ⟨k.1, k.2, fun h => absurd (UInt8.toNat_inj.1 h) e, fun h => absurd (UInt8.toNat_inj.1 h) e'⟩
        rw [hl]
        refine .inl (key (n := ((b0.toNat - 0xE0) * 64 + (b1.toNat - 0x80)) * 64 + (b2.toNat - 0x80)) (by omega) fun c hc => ?_)
        rcases encode_cases c with ⟨_, a0, he, _⟩ | ⟨_, _, a0, a1, he, _⟩ | ⟨_, _, a0, a1, a2, he, m0, m1, m2⟩ | ⟨_, _, a0, a1, a2, a3, he, _⟩
        · omega
        · omega
        · have e0 : a0 = b0 := UInt8.toNat_inj.1 (by omega)
          have e1 : a1 = b1 := UInt8.toNat_inj.1 (by omega)
          have e2 : a2 = b2 := UInt8.toNat_inj.1 (by omega)
          rw [he, e0, e1, e2]
          rfl
        · omega
      · exact .inr (one (by simp [Go.runeLen, hb, h2, h3, h]))
  by_cases h4 : Go.inRange 0xF0 0xF4 b0 = true
  · rcases r with _ | ⟨b1, _ | ⟨b2, _ | ⟨b3, r'⟩⟩⟩
    · exact .inr (one (by simp [Go.runeLen, hb, h2, h3, h4]))
    · exact .inr (one (by simp [Go.runeLen, hb, h2, h3, h4]))
    · exact .inr (one (by simp [Go.runeLen, hb, h2, h3, h4]))
    · by_cases h : (Go.inRange (if b0 = 0xF0 then 0x90 else 0x80) (if b0 = 0xF4 then 0x8F else 0xBF) b1 = true ∧
          Go.inRange 0x80 0xBF b2 = true) ∧ Go.inRange 0x80 0xBF b3 = true
      · have hl : Go.runeLen (b0 :: b1 :: b2 :: b3 :: r') = 4 := by simp [Go.runeLen, hb, h2, h3, h4, h]
        have k4 : 0xF0 ≤ b0.toNat ∧ b0.toNat ≤ 0xF4 := Go.inRange_toNat h4
        have k2 : 0x80 ≤ b2.toNat ∧ b2.toNat ≤ 0xBF := Go.inRange_toNat h.1.2
        have k3 : 0x80 ≤ b3.toNat ∧ b3.toNat ≤ 0xBF := Go.inRange_toNat h.2
        have k1 : 0x80 ≤ b1.toNat ∧ b1.toNat ≤ 0xBF ∧ (b0.toNat = 0xF0 → 0x90 ≤ b1.toNat) ∧ (b0.toNat = 0xF4 → b1.toNat ≤ 0x8F) := by
          have k := Go.inRange_toNat h.1.1
          by_cases e : b0 = 0xF0
          · subst e
            have k : 0x90 ≤ b1.toNat ∧ b1.toNat ≤ 0xBF := k
            refine ⟨by omega, k.2, fun _ => k.1, fun h => absurd h (by decide)⟩
          by_cases e' : b0 = 0xF4
          · subst e'
            have k : 0x80 ≤ b1.toNat ∧ b1.toNat ≤ 0x8F := k
            refine ⟨k.1, by omega, fun h => absurd h (by decide), fun _ => k.2⟩
          rw [if_neg e, if_neg e'] at k
          exact ⟨k.1, k.2, fun h => absurd (UInt8.toNat_inj.1 h) e, fun h => absurd (UInt8.toNat_inj.1 h) e'⟩
        rw [hl]
        refine .inl (key (n := (((b0.toNat - 0xF0) * 64 + (b1.toNat - 0x80)) * 64 + (b2.toNat - 0x80)) * 64 + (b3.toNat - 0x80))
          (by omega) fun c hc => ?_)
        rcases encode_cases c with ⟨_, a0, he, _⟩ | ⟨_, _, a0, a1, he, _⟩ | ⟨_, _, a0, a1, a2, he, _⟩ | ⟨_, _, a0, a1, a2, a3, he, m0, m1, m2, m3⟩
        · omega
        · omega
        · omega
        · have e0 : a0 = b0 := UInt8.toNat_inj.1 (by omega)
          have e1 : a1 = b1 := UInt8.toNat_inj.1 (by omega)
          have e2 : a2 = b2 := UInt8.toNat_inj.1 (by omega)
          have e3 : a3 = b3 := UInt8.toNat_inj.1 (by omega)
          rw [he, e0, e1, e2, e3]
          rfl
      · exact .inr (one (by simp [Go.runeLen, hb, h2, h3, h4, h]))
  · exact .inr (one (by simp [Go.runeLen, hb, h2, h3, h4]))

/-! ### No text stands for two values -/

theorem hexDigit_ascii {b : UInt8} {n : Nat} (h : Spec.hexDigit b = some n) : n < 16 := by
  unfold Spec.hexDigit at h
  split at h
  · simp only [Option.some.injEq] at h
    rename_i k
    have : b.toNat ≤ 57 := UInt8.le_iff_toNat_le.1 k.2
    omega
  · split at h
    · simp only [Option.some.injEq] at h
      rename_i k
      have : b.toNat ≤ 70 := UInt8.le_iff_toNat_le.1 k.2
      omega
    · split at h
      · simp only [Option.some.injEq] at h
        rename_i k
        have : b.toNat ≤ 102 := UInt8.le_iff_toNat_le.1 k.2
        omega
      · cases h

/-- Neither a quotation mark nor a reverse solidus begins a plain character. -/
theorem plain_head {c : Char} (h : c ≠ '"') (h' : c ≠ '\\') : ∃ b t, String.utf8EncodeChar c = b :: t ∧ b ≠ 34 ∧ b ≠ 92 := by
  obtain ⟨b, t, he, k1, k2⟩ := encode_head c
  refine ⟨b, t, he, ?_, ?_⟩ <;> rintro rfl
  · by_cases hc : c.toNat < 0x80
    · exact h (char_ext (k1 hc).1.symm)
    · exact absurd (k2 (by omega)).1 (by decide)
  · by_cases hc : c.toNat < 0x80
    · exact h' (char_ext (k1 hc).1.symm)
    · exact absurd (k2 (by omega)).1 (by decide)

theorem escapes_inj {b : UInt8} {n m : Nat} (h : (b, n) ∈ escapes) (h' : (b, m) ∈ escapes) : n = m := by
  have key : ∀ x ∈ escapes, ∀ y ∈ escapes, x.1 = y.1 → x.2 = y.2 := by decide
  exact key _ h _ h' rfl

theorem escapes_not_u {n : Nat} (h : ((117 : UInt8), n) ∈ escapes) : False := by
  have key : ∀ x ∈ escapes, x.1 ≠ 117 := by decide
  exact key _ h rfl

theorem chars_unique {u : List Nat} {t : Str} (h : Chars u t) : ∀ {u' t' r r'}, Chars u' t' →
    t ++ 34 :: r = t' ++ 34 :: r' → u = u' ∧ t = t' ∧ r = r' := by
  induction h with
  | nil =>
    intro u' t' r r' h' he
    cases h' with
    | nil => simpa using he
    | plain c _ h1 h2 _ =>
      obtain ⟨b, t, hb, hq, _⟩ := plain_head h1 h2
      rw [hb] at he
      simp at he
      exact absurd he.1.symm hq
    | escape => simp at he
    | hex => simp at he
  | plain c h0 h1 h2 _ ih =>
    intro u' t' r r' h' he
    obtain ⟨b, t, hb, hq, hs⟩ := plain_head h1 h2
    cases h' with
    | nil =>
      rw [hb] at he
      simp at he
      exact absurd he.1 hq
    | plain d _ _ _ hd =>
      rw [List.append_assoc, List.append_assoc] at he
      obtain ⟨rfl, hr⟩ := encode_cancel he
      obtain ⟨rfl, rfl, rfl⟩ := ih hd hr
      exact ⟨rfl, rfl, rfl⟩
    | escape =>
      rw [hb] at he
      simp at he
      exact absurd he.1 hs
    | hex =>
      rw [hb] at he
      simp at he
      exact absurd he.1 hs
  | escape b n hm _ ih =>
    intro u' t' r r' h' he
    cases h' with
    | nil => simp at he
    | plain c _ h1 h2 _ =>
      obtain ⟨b, t, hb, _, hs⟩ := plain_head h1 h2
      rw [hb] at he
      simp at he
      exact absurd he.1.symm hs
    | escape b' n' hm' hd =>
      simp only [List.cons_append, List.cons.injEq, true_and] at he
      obtain ⟨rfl, he⟩ := he
      obtain ⟨rfl, rfl, rfl⟩ := ih hd he
      rw [escapes_inj hm hm']
      exact ⟨rfl, rfl, rfl⟩
    | hex =>
      simp only [List.cons_append, List.cons.injEq, true_and] at he
      obtain ⟨rfl, _⟩ := he
      exact (escapes_not_u hm).elim
  | hex a b c d w x y z ha hb hc hd _ ih =>
    intro u' t' r r' h' he
    cases h' with
    | nil => simp at he
    | plain c _ h1 h2 _ =>
      obtain ⟨b, t, hb, _, hs⟩ := plain_head h1 h2
      rw [hb] at he
      simp at he
      exact absurd he.1.symm hs
    | escape b' n' hm' hd =>
      simp only [List.cons_append, List.cons.injEq, true_and] at he
      obtain ⟨rfl, _⟩ := he
      exact (escapes_not_u hm').elim
    | hex a' b' c' d' w' x' y' z' ha' hb' hc' hd' hr =>
      simp only [List.cons_append, List.cons.injEq, true_and] at he
      obtain ⟨rfl, rfl, rfl, rfl, he⟩ := he
      obtain ⟨rfl, rfl, rfl⟩ := ih hr he
      cases ha.symm.trans ha'
      cases hb.symm.trans hb'
      cases hc.symm.trans hc'
      cases hd.symm.trans hd'
      exact ⟨rfl, rfl, rfl⟩

def isWs (b : UInt8) : Bool := b = 32 || b = 9 || b = 10 || b = 13

/-- White space in front of something else is the same. -/
theorem ws_cancel {w w' : Str} {x y : UInt8} {t t' : Str} (h : Ws w) (h' : Ws w') (hx : isWs x = false) (hy : isWs y = false)
    (he : w ++ x :: t = w' ++ y :: t') : w = w' ∧ x = y ∧ t = t' := by
  have hm : ∀ {b : UInt8} {w : Str}, Ws w → b ∈ w → isWs b = true := by
    intro b w hw hb
    rcases hw b hb with rfl | rfl | rfl | rfl <;> rfl
  induction w generalizing w' with
  | nil =>
    cases w' with
    | nil => simpa using he
    | cons b w' =>
      simp at he
      rw [he.1, hm h' (by simp)] at hx
      cases hx
  | cons a w ih =>
    cases w' with
    | nil =>
      simp at he
      rw [← he.1, hm h (by simp)] at hy
      cases hy
    | cons b w' =>
      simp only [List.cons_append, List.cons.injEq] at he
      obtain ⟨rfl, he⟩ := he
      obtain ⟨rfl, rfl, rfl⟩ := ih (fun b hb => h b (by simp [hb])) (fun b hb => h' b (by simp [hb])) he
      exact ⟨rfl, rfl, rfl⟩

/-- What numbers consist of. -/
def isNum (b : UInt8) : Bool := (48 ≤ b && b ≤ 57) || b = 45 || b = 43 || b = 46 || b = 101 || b = 69

theorem digits_num {t : Str} (h : Digits t) : ∀ b ∈ t, isNum b = true := by
  intro b hb
  have := h b hb
  simp [isNum, this.1, this.2]

theorem number_num {t : Str} (h : Number t) : t ≠ [] ∧ (∀ b ∈ t, isNum b = true) ∧
    ∃ b r, t = b :: r ∧ (b = 45 ∨ 48 ≤ b ∧ b ≤ 57) := by
  obtain ⟨m, i, f, e, rfl, hm, hi, hf, he⟩ := h
  have hd : ∀ {d : UInt8}, 49 ≤ d → d ≤ 57 → 48 ≤ d ∧ d ≤ 57 := fun h h' => ⟨UInt8.le_trans (by decide) h, h'⟩
  have hi' : (∀ b ∈ i, isNum b = true) ∧ ∃ b r, i = b :: r ∧ 48 ≤ b ∧ b ≤ 57 := by
    rcases hi with rfl | ⟨d, ds, rfl, h1, h2, h3⟩
    · exact ⟨by decide, 48, [], rfl, by decide, by decide⟩
    · refine ⟨?_, d, ds, rfl, (hd h1 h2).1, h2⟩
      intro b hb
      rcases List.mem_cons.1 hb with rfl | hb
      · simp [isNum, (hd h1 h2).1, h2]
      · exact digits_num h3 b hb
  obtain ⟨hi1, b, r, rfl, hb1, hb2⟩ := hi'
  refine ⟨by simp, ?_, ?_⟩
  · intro x hx
    simp only [List.mem_append] at hx
    rcases hx with ((hx | hx) | hx) | hx
    · rcases hm with rfl | rfl
      · cases hx
      · revert x
        decide
    · exact hi1 x hx
    · rcases hf with rfl | ⟨ds, rfl, _, h3⟩
      · cases hx
      · rcases List.mem_cons.1 hx with rfl | hx
        · decide
        · exact digits_num h3 x hx
    · rcases he with rfl | ⟨c, s, ds, rfl, hc, hs, _, h3⟩
      · cases hx
      · simp only [List.cons_append, List.mem_cons, List.mem_append] at hx
        rcases hx with rfl | hx | hx
        · rcases hc with rfl | rfl <;> decide
        · rcases hs with rfl | rfl | rfl
          · cases hx
          · revert x
            decide
          · revert x
            decide
        · exact digits_num h3 x hx
  · rcases hm with rfl | rfl
    · exact ⟨b, _, rfl, .inr ⟨hb1, hb2⟩⟩
    · exact ⟨45, _, rfl, .inl rfl⟩

/-- What may come behind a value. -/
def Behind (r : Str) : Prop := ∀ b r', r = b :: r' → isNum b = false

theorem all_cancel {p : UInt8 → Bool} : ∀ {t t' r r' : Str}, (∀ b ∈ t, p b = true) → (∀ b ∈ t', p b = true) →
    (∀ b s, r = b :: s → p b = false) → (∀ b s, r' = b :: s → p b = false) → t ++ r = t' ++ r' → t = t' ∧ r = r'
  | [], [], _, _, _, _, _, _, he => ⟨rfl, he⟩
  | [], b :: t', _, _, _, ht', hr, _, he => by
    have := hr b _ he
    rw [ht' b (by simp)] at this
    cases this
  | b :: t, [], _, _, ht, _, _, hr', he => by
    have := hr' b _ he.symm
    rw [ht b (by simp)] at this
    cases this
  | a :: t, b :: t', _, _, ht, ht', hr, hr', he => by
    simp only [List.cons_append, List.cons.injEq] at he
    obtain ⟨rfl, he⟩ := he
    obtain ⟨rfl, rfl⟩ := all_cancel (fun b hb => ht b (by simp [hb])) (fun b hb => ht' b (by simp [hb])) hr hr' he
    exact ⟨rfl, rfl⟩

/-- The first byte of a value. -/
def first : Value → UInt8 → Bool
  | .null, b => b = 110
  | .bool true, b => b = 116
  | .bool false, b => b = 102
  | .num _, b => b = 45 || (48 ≤ b && b ≤ 57)
  | .str _, b => b = 34
  | .arr _, b => b = 91
  | .obj _, b => b = 123

theorem written_first {v : Value} {t : Str} (h : Written v t) : ∃ b r, t = b :: r ∧ first v b = true := by
  cases h with
  | null => exact ⟨_, _, rfl, rfl⟩
  | true => exact ⟨_, _, rfl, rfl⟩
  | false => exact ⟨_, _, rfl, rfl⟩
  | num hn =>
    obtain ⟨b, r, rfl, hb⟩ := (number_num hn).2.2
    refine ⟨b, r, rfl, ?_⟩
    rcases hb with rfl | ⟨h1, h2⟩
    · rfl
    · simp [first, h1, h2]
  | str => exact ⟨_, _, rfl, rfl⟩
  | noElements => exact ⟨_, _, rfl, rfl⟩
  | arr => exact ⟨_, _, rfl, rfl⟩
  | noMembers => exact ⟨_, _, rfl, rfl⟩
  | obj => exact ⟨_, _, rfl, rfl⟩

theorem first_range {v : Value} {b : UInt8} (h : first v b = true) :
    b = 110 ∨ b = 116 ∨ b = 102 ∨ b = 45 ∨ (48 ≤ b ∧ b ≤ 57) ∨ b = 34 ∨ b = 91 ∨ b = 123 := by
  cases v with
  | bool x => cases x <;> simp_all [first]
  | _ => simp_all [first] <;> grind

theorem first_not {v : Value} {b : UInt8} (h : first v b = true) : isWs b = false ∧ b ≠ 93 ∧ b ≠ 125 ∧ b ≠ 44 := by
  rcases first_range h with rfl | rfl | rfl | rfl | ⟨h1, h2⟩ | rfl | rfl | rfl
  iterate 4 exact ⟨rfl, by decide, by decide, by decide⟩
  · have h1 : 48 ≤ b.toNat := UInt8.le_iff_toNat_le.1 h1
    have h2 : b.toNat ≤ 57 := UInt8.le_iff_toNat_le.1 h2
    have hn : ∀ x : UInt8, x.toNat < 48 ∨ 57 < x.toNat → b ≠ x := by
      rintro x hx rfl
      omega
    refine ⟨?_, hn _ (by decide), hn _ (by decide), hn _ (by decide)⟩
    simp [isWs, hn 32 (by decide), hn 9 (by decide), hn 10 (by decide), hn 13 (by decide)]
  all_goals exact ⟨rfl, by decide, by decide, by decide⟩

theorem behind_ws {w : Str} {b : UInt8} {r : Str} (hw : Ws w) (hb : isNum b = false) : Behind (w ++ b :: r) := by
  intro x r' he
  cases w with
  | nil =>
    simp at he
    rw [← he.1]
    exact hb
  | cons a w =>
    simp at he
    rw [← he.1]
    rcases hw a (by simp) with rfl | rfl | rfl | rfl <;> rfl

theorem elements_first {l : List Value} {t : Str} (h : Elements l t) : ∃ w b r, t = w ++ b :: r ∧ Ws w ∧ isWs b = false ∧ b ≠ 93 := by
  cases h with
  | one hw hv _ =>
    obtain ⟨b, r, rfl, hb⟩ := written_first hv
    exact ⟨_, b, _, by simp only [List.append_assoc, List.cons_append]; rfl, hw, (first_not hb).1, (first_not hb).2.1⟩
  | more hw hv _ _ =>
    obtain ⟨b, r, rfl, hb⟩ := written_first hv
    exact ⟨_, b, _, by simp only [List.append_assoc, List.cons_append]; rfl, hw, (first_not hb).1, (first_not hb).2.1⟩

theorem members_first {l : List (List Nat × Value)} {t : Str} (h : Members l t) : ∃ w r, t = w ++ 34 :: r ∧ Ws w := by
  cases h with
  | one hw => exact ⟨_, _, by simp only [List.append_assoc, List.cons_append]; rfl, hw⟩
  | more hw => exact ⟨_, _, by simp only [List.append_assoc, List.cons_append]; rfl, hw⟩

/-- What is shown of a value: the next value is the same, and so is the rest. -/
def Unique (v : Value) (t : Str) : Prop :=
  ∀ v' t' r r', Written v' t' → Behind r → Behind r' → t ++ r = t' ++ r' → v = v' ∧ t = t' ∧ r = r'

def UniqueElements (l : List Value) (t : Str) : Prop :=
  ∀ l' t' r r', Elements l' t' → t ++ 93 :: r = t' ++ 93 :: r' → l = l' ∧ t = t' ∧ r = r'

def UniqueMembers (l : List (List Nat × Value)) (t : Str) : Prop :=
  ∀ l' t' r r', Members l' t' → t ++ 125 :: r = t' ++ 125 :: r' → l = l' ∧ t = t' ∧ r = r'

/-- A value between white space, and what comes behind it. -/
theorem unique_padded {v v' : Value} {w t w' x x' y' : Str} {a b : UInt8} {r r' : Str} (ih : Unique v t) (hv : Written v t)
    (hw : Ws w) (hw' : Ws w') (hv' : Written v' x') (hx : Ws x) (hy : Ws y') (ha : a = 44 ∨ a = 93 ∨ a = 125)
    (hb : b = 44 ∨ b = 93 ∨ b = 125) (he : w ++ (t ++ (w' ++ a :: r)) = x ++ (x' ++ (y' ++ b :: r'))) :
    v = v' ∧ w = x ∧ t = x' ∧ w' = y' ∧ a = b ∧ r = r' := by
  have num : ∀ {a : UInt8}, a = 44 ∨ a = 93 ∨ a = 125 → isNum a = false ∧ isWs a = false := by
    rintro a (rfl | rfl | rfl) <;> exact ⟨rfl, rfl⟩
  obtain ⟨c, z, ht, hc⟩ := written_first hv
  obtain ⟨d, z', ht', hd⟩ := written_first hv'
  have he' := he
  rw [ht, ht'] at he'
  obtain ⟨rfl, -, -⟩ := ws_cancel hw hx (first_not hc).1 (first_not hd).1 (by simpa only [List.cons_append] using he')
  obtain ⟨rfl, rfl, h⟩ := ih _ _ _ _ hv' (behind_ws hw' (num ha).1) (behind_ws hy (num hb).1) (List.append_cancel_left he)
  obtain ⟨rfl, rfl, rfl⟩ := ws_cancel hw' hy (num ha).2 (num hb).2 h
  exact ⟨rfl, rfl, rfl, rfl, rfl, rfl⟩

/-- A member, and what comes behind it. -/
theorem unique_member {k k' : List Nat} {v v' : Value} {s s' w1 w2 w3 w4 x1 x2 x3 x4 t t' : Str} {a b : UInt8} {r r' : Str}
    (ih : Unique v t) (hk : Chars k s) (hk' : Chars k' s') (hv : Written v t) (hv' : Written v' t') (h1 : Ws w1) (h2 : Ws w2)
    (h3 : Ws w3) (h4 : Ws w4) (g1 : Ws x1) (g2 : Ws x2) (g3 : Ws x3) (g4 : Ws x4) (ha : a = 44 ∨ a = 93 ∨ a = 125)
    (hb : b = 44 ∨ b = 93 ∨ b = 125)
    (he : w1 ++ 34 :: (s ++ 34 :: (w2 ++ 58 :: (w3 ++ (t ++ (w4 ++ a :: r))))) =
      x1 ++ 34 :: (s' ++ 34 :: (x2 ++ 58 :: (x3 ++ (t' ++ (x4 ++ b :: r')))))) :
    k = k' ∧ v = v' ∧ w1 = x1 ∧ s = s' ∧ w2 = x2 ∧ w3 = x3 ∧ t = t' ∧ w4 = x4 ∧ a = b ∧ r = r' := by
  obtain ⟨rfl, -, e1⟩ := ws_cancel h1 g1 rfl rfl he
  obtain ⟨rfl, rfl, e2⟩ := chars_unique hk hk' e1
  obtain ⟨rfl, -, e3⟩ := ws_cancel h2 g2 rfl rfl e2
  obtain ⟨rfl, rfl, rfl, rfl, rfl, rfl⟩ := unique_padded ih hv h3 h4 hv' g3 g4 ha hb e3
  simp

theorem head_ne {v' : Value} {t' r' : Str} {a : UInt8} {t r : Str} (h : Written v' t') (he : (a :: t) ++ r = t' ++ r') :
    first v' a = true := by
  obtain ⟨b, z, rfl, hb⟩ := written_first h
  simp at he
  rw [he.1]
  exact hb

theorem written_unique {v : Value} {t : Str} (h : Written v t) : Unique v t := by
  refine Written.rec (motive_1 := fun v t _ => Unique v t) (motive_2 := fun l t _ => UniqueElements l t)
    (motive_3 := fun l t _ => UniqueMembers l t) ?_ ?_ ?_ ?_ ?_ ?_ ?_ ?_ ?_ ?_ ?_ ?_ ?_ h
  · intro v' t' r r' h' _ _ he
    have hf := head_ne h' he
    cases h' with
    | null => exact ⟨rfl, rfl, by simpa using he⟩
    | num hn => simp [first] at hf
    | _ => simp [first] at hf
  · intro v' t' r r' h' _ _ he
    have hf := head_ne h' he
    cases h' with
    | true => exact ⟨rfl, rfl, by simpa using he⟩
    | num hn => simp [first] at hf
    | _ => simp [first] at hf
  · intro v' t' r r' h' _ _ he
    have hf := head_ne h' he
    cases h' with
    | false => exact ⟨rfl, rfl, by simpa using he⟩
    | num hn => simp [first] at hf
    | _ => simp [first] at hf
  · intro t hn v' t' r r' h' hr hr' he
    obtain ⟨b, z, ht, hb⟩ := (number_num hn).2.2
    have hf : first v' b = true := head_ne h' (by rw [← ht]; exact he)
    have no : ∀ x : UInt8, x ≠ 45 → x.toNat < 48 ∨ 57 < x.toNat → b ≠ x := by
      rintro x hx hx' rfl
      rcases hb with rfl | ⟨h1, h2⟩
      · exact hx rfl
      · have h1 : 48 ≤ b.toNat := UInt8.le_iff_toNat_le.1 h1
        have h2 : b.toNat ≤ 57 := UInt8.le_iff_toNat_le.1 h2
        omega
    cases h' with
    | num hn' =>
      obtain ⟨rfl, rfl⟩ := all_cancel (number_num hn).2.1 (number_num hn').2.1 hr hr' he
      exact ⟨rfl, rfl, rfl⟩
    | null => exact absurd (by simpa [first] using hf) (no 110 (by decide) (by decide))
    | true => exact absurd (by simpa [first] using hf) (no 116 (by decide) (by decide))
    | false => exact absurd (by simpa [first] using hf) (no 102 (by decide) (by decide))
    | str => exact absurd (by simpa [first] using hf) (no 34 (by decide) (by decide))
    | noElements => exact absurd (by simpa [first] using hf) (no 91 (by decide) (by decide))
    | arr => exact absurd (by simpa [first] using hf) (no 91 (by decide) (by decide))
    | noMembers => exact absurd (by simpa [first] using hf) (no 123 (by decide) (by decide))
    | obj => exact absurd (by simpa [first] using hf) (no 123 (by decide) (by decide))
  · intro u t hc v' t' r r' h' _ _ he
    have hf := head_ne h' he
    cases h' with
    | str hc' =>
      obtain ⟨rfl, rfl, rfl⟩ := chars_unique hc hc' (by simpa using he)
      exact ⟨rfl, rfl, rfl⟩
    | num hn => simp [first] at hf
    | _ => simp [first] at hf
  · intro w hw v' t' r r' h' _ _ he
    have hf := head_ne h' he
    cases h' with
    | noElements hw' =>
      obtain ⟨rfl, -, rfl⟩ := ws_cancel hw hw' rfl rfl (x := 93) (y := 93) (by simpa using he)
      exact ⟨rfl, rfl, rfl⟩
    | arr hl =>
      obtain ⟨z, b, q, rfl, hz, hb, hne⟩ := elements_first hl
      exact absurd (ws_cancel hw hz rfl hb (x := 93) (by simpa using he)).2.1.symm hne
    | num hn => simp [first] at hf
    | _ => simp [first] at hf
  · intro l t hl ih v' t' r r' h' _ _ he
    have hf := head_ne h' he
    cases h' with
    | noElements hw' =>
      obtain ⟨z, b, q, rfl, hz, hb, hne⟩ := elements_first hl
      exact absurd (ws_cancel hw' hz rfl hb (x := 93) (by simpa using he.symm)).2.1.symm hne
    | arr hl' =>
      obtain ⟨rfl, rfl, rfl⟩ := ih _ _ _ _ hl' (by simpa using he)
      exact ⟨rfl, rfl, rfl⟩
    | num hn => simp [first] at hf
    | _ => simp [first] at hf
  · intro w hw v' t' r r' h' _ _ he
    have hf := head_ne h' he
    cases h' with
    | noMembers hw' =>
      obtain ⟨rfl, -, rfl⟩ := ws_cancel hw hw' rfl rfl (x := 125) (y := 125) (by simpa using he)
      exact ⟨rfl, rfl, rfl⟩
    | obj hl =>
      obtain ⟨z, q, rfl, hz⟩ := members_first hl
      exact absurd (ws_cancel hw hz rfl rfl (x := 125) (y := 34) (by simpa using he)).2.1 (by decide)
    | num hn => simp [first] at hf
    | _ => simp [first] at hf
  · intro l t hl ih v' t' r r' h' _ _ he
    have hf := head_ne h' he
    cases h' with
    | noMembers hw' =>
      obtain ⟨z, q, rfl, hz⟩ := members_first hl
      exact absurd (ws_cancel hw' hz rfl rfl (x := 125) (y := 34) (by simpa using he.symm)).2.1 (by decide)
    | obj hl' =>
      obtain ⟨rfl, rfl, rfl⟩ := ih _ _ _ _ hl' (by simpa using he)
      exact ⟨rfl, rfl, rfl⟩
    | num hn => simp [first] at hf
    | _ => simp [first] at hf
  · intro v w t w' hw hv hw' ih l' t' r r' h' he
    cases h' with
    | one gw gv gw' =>
      obtain ⟨rfl, rfl, rfl, rfl, -, rfl⟩ := unique_padded ih hv hw hw' gv gw gw' (a := 93) (b := 93) (by simp) (by simp)
        (by simpa using he)
      exact ⟨rfl, rfl, rfl⟩
    | more gw gv gw' _ =>
      have := unique_padded ih hv hw hw' gv gw gw' (a := 93) (b := 44) (by simp) (by simp) (by simpa using he)
      exact absurd this.2.2.2.2.1 (by decide)
  · intro v w t w' l ts hw hv hw' _ ih ihl l' t' r r' h' he
    cases h' with
    | one gw gv gw' =>
      have := unique_padded ih hv hw hw' gv gw gw' (a := 44) (b := 93) (by simp) (by simp) (by simpa using he)
      exact absurd this.2.2.2.2.1 (by decide)
    | more gw gv gw' gl =>
      obtain ⟨rfl, rfl, rfl, rfl, -, h⟩ := unique_padded ih hv hw hw' gv gw gw' (a := 44) (b := 44) (by simp) (by simp)
        (by simpa using he)
      obtain ⟨rfl, rfl, rfl⟩ := ihl _ _ _ _ gl h
      exact ⟨rfl, rfl, rfl⟩
  · intro k v s t w1 w2 w3 w4 h1 hk h2 h3 hv h4 ih l' t' r r' h' he
    cases h' with
    | one g1 gk g2 g3 gv g4 =>
      obtain ⟨rfl, rfl, rfl, rfl, rfl, rfl, rfl, rfl, -, rfl⟩ := unique_member ih hk gk hv gv h1 h2 h3 h4 g1 g2 g3 g4
        (a := 125) (b := 125) (by simp) (by simp) (by simpa using he)
      exact ⟨rfl, rfl, rfl⟩
    | more g1 gk g2 g3 gv g4 gl =>
      have := unique_member ih hk gk hv gv h1 h2 h3 h4 g1 g2 g3 g4 (a := 125) (b := 44) (by simp) (by simp) (by simpa using he)
      exact absurd this.2.2.2.2.2.2.2.2.1 (by decide)
  · intro k v s t w1 w2 w3 w4 l ts h1 hk h2 h3 hv h4 _ ih ihl l' t' r r' h' he
    cases h' with
    | one g1 gk g2 g3 gv g4 =>
      have := unique_member ih hk gk hv gv h1 h2 h3 h4 g1 g2 g3 g4 (a := 44) (b := 125) (by simp) (by simp) (by simpa using he)
      exact absurd this.2.2.2.2.2.2.2.2.1 (by decide)
    | more g1 gk g2 g3 gv g4 gl =>
      obtain ⟨rfl, rfl, rfl, rfl, rfl, rfl, rfl, rfl, -, h⟩ := unique_member ih hk gk hv gv h1 h2 h3 h4 g1 g2 g3 g4
        (a := 44) (b := 44) (by simp) (by simp) (by simpa using he)
      obtain ⟨rfl, rfl, rfl⟩ := ihl _ _ _ _ gl h
      exact ⟨rfl, rfl, rfl⟩

theorem text_unique {v v' : Value} {t : Str} (h : Text v t) (h' : Text v' t) : v = v' := by
  obtain ⟨w, x, w', hw, hx, hw', rfl⟩ := h
  obtain ⟨y, z, y', hy, hz, hy', he⟩ := h'
  obtain ⟨b, r, hb, kb⟩ := written_first hx
  obtain ⟨c, q, hc, kc⟩ := written_first hz
  have he' := he
  rw [hb, hc] at he'
  have := ws_cancel hw hy (first_not kb).1 (first_not kc).1 (t := r ++ w') (t' := q ++ y') (by simpa using he')
  obtain ⟨rfl, -, -⟩ := this
  have bw : ∀ {w : Str}, Ws w → Behind w := by
    intro w hw b r hr
    rcases hw b (by simp [hr]) with rfl | rfl | rfl | rfl <;> rfl
  rw [List.append_assoc, List.append_assoc] at he
  exact (written_unique hx _ _ _ _ hz (bw hw') (bw hy') (List.append_cancel_left he)).1

/-! ### Strings are written as what they are -/

theorem hexDigit_hex : ∀ {n : Nat}, n < 16 → Spec.hexDigit (hex n) = some n := by
  have key : ∀ n : Fin 16, Spec.hexDigit (hex n) = some n.val := by decide
  exact fun {n} h => key ⟨n, h⟩

theorem units_small {n : Nat} (h : n < 0x10000) : units n = [n] := if_pos h

/-- `\u00` and two digits. -/
theorem chars_hex2 {n : Nat} (h : n < 256) {u : List Nat} {t : Str} (ht : Chars u t) :
    Chars (units n ++ u) (g!"\\u00" ++ [hex (n / 16), hex (n % 16)] ++ t) := by
  have := Chars.hex 48 48 _ _ 0 0 _ _ (by decide) (by decide) (hexDigit_hex (n := n / 16) (by omega))
    (hexDigit_hex (n := n % 16) (by omega)) ht
  rw [units_small (by omega)]
  have e : 0 * 4096 + 0 * 256 + n / 16 * 16 + n % 16 = n := by omega
  rw [e] at this
  exact this

theorem encode_ascii {b : UInt8} (h : b < 0x80) : ∃ c : Char, c.toNat = b.toNat ∧ String.utf8EncodeChar c = [b] := by
  have hn : b.toNat < 0x80 := UInt8.lt_iff_toNat_lt.1 h
  obtain ⟨c, hc⟩ := char_of (n := b.toNat) (by omega)
  obtain ⟨a, t, he, k, _⟩ := encode_head c
  obtain ⟨k1, rfl⟩ := k (by omega)
  exact ⟨c, hc, by rw [he, UInt8.toNat_inj.1 (k1.trans hc)]⟩

theorem chars_plain {b : UInt8} (h : b < 0x80) (h1 : 32 ≤ b) (h2 : b ≠ 34) (h3 : b ≠ 92) {u : List Nat} {t : Str} (ht : Chars u t) :
    Chars (units b.toNat ++ u) (b :: t) := by
  obtain ⟨c, hc, he⟩ := encode_ascii h
  have := Chars.plain c (by rw [hc]; exact UInt8.le_iff_toNat_le.1 h1)
    (by rintro rfl; exact h2 (UInt8.toNat_inj.1 hc.symm)) (by rintro rfl; exact h3 (UInt8.toNat_inj.1 hc.symm)) ht
  rwa [he, hc] at this

theorem chars_wide {c : Char} (h : 0x80 ≤ c.toNat) {u : List Nat} {t : Str} (ht : Chars u t) :
    Chars (units c.toNat ++ u) (String.utf8EncodeChar c ++ t) :=
  Chars.plain c (by omega) (by rintro rfl; exact absurd h (by decide)) (by rintro rfl; exact absurd h (by decide)) ht

theorem chars_short {b : UInt8} {n : Nat} (h : (b, n) ∈ escapes) (hn : n < 0x10000) {u : List Nat} {t : Str} (ht : Chars u t) :
    Chars (units n ++ u) (92 :: b :: t) := by
  rw [units_small hn]
  exact Chars.escape b n h ht

theorem u8_lt {b : UInt8} {n : Nat} (h : b = UInt8.ofNat n) (hn : n < 256) : b.toNat = n := by
  rw [h]
  exact ofNat_toNat hn

/-- What `jsoniter` writes for a rune. -/
theorem chars_piece {s x : Str} (hx : x ∈ Go.chunks s) {u : List Nat} {t : Str} (ht : Chars u t) :
    Chars (units (Go.runeOf x) ++ u) (piece x ++ t) := by
  rcases chunk_cases hx with ⟨c, rfl⟩ | ⟨b, rfl, hb⟩
  · obtain ⟨b, r, he, k1, k2⟩ := encode_head c
    rw [runeOf_encode]
    by_cases hc : c.toNat < 0x80
    · obtain ⟨kb, rfl⟩ := k1 hc
      have hb : b < 0x80 := UInt8.lt_iff_toNat_lt.2 (by rw [kb]; exact hc)
      rw [he, ← kb]
      unfold piece
      simp only [hb, if_true]
      split
      · rename_i hs
        simp only [htmlSafe, Bool.and_eq_true, decide_eq_true_eq] at hs
        exact chars_plain hb hs.1.1.1.1.1.1 hs.1.1.1.1.2 hs.2 ht
      · split
        · rename_i h
          rcases h with rfl | rfl
          · exact chars_short (n := 0x5C) (by decide) (by omega) ht
          · exact chars_short (n := 0x22) (by decide) (by omega) ht
        · split
          · rename_i h
            subst h
            exact chars_short (n := 0x0A) (by decide) (by omega) ht
          · split
            · rename_i h
              subst h
              exact chars_short (n := 0x0D) (by decide) (by omega) ht
            · split
              · rename_i h
                subst h
                exact chars_short (n := 0x09) (by decide) (by omega) ht
              · exact chars_hex2 (by omega) ht
    · have k := k2 (by omega)
      obtain ⟨b', r', rfl⟩ := List.exists_cons_of_ne_nil k.2.1
      have hp : piece (String.utf8EncodeChar c) = if c.toNat = 0x2028 ∨ c.toNat = 0x2029 then g!"\\u202" ++ [hex (c.toNat % 16)]
          else String.utf8EncodeChar c := by
        rw [← runeOf_encode c, he]
        rfl
      rw [hp]
      split
      · rename_i h
        have hm : c.toNat % 16 = 8 ∨ c.toNat % 16 = 9 := by omega
        have := Chars.hex 50 48 50 _ 2 0 2 _ (by decide) (by decide) (by decide) (hexDigit_hex (n := c.toNat % 16) (by omega)) ht
        rw [units_small (by omega)]
        have e : 2 * 4096 + 0 * 256 + 2 * 16 + c.toNat % 16 = c.toNat := by omega
        rw [e] at this
        exact this
      · exact chars_wide (by omega) ht
  · have h1 : Go.runeOf [b] = 0xFFFD := if_neg hb
    have h2 : piece [b] = g!"\\ufffd" := if_neg hb
    rw [h1, h2]
    exact Chars.hex 102 102 102 100 15 15 15 13 (by decide) (by decide) (by decide) (by decide) ht

theorem chars_quote (s : Str) : Chars (reading s) ((Go.chunks s).flatMap piece) := by
  have key : ∀ l : List Str, (∀ x ∈ l, x ∈ Go.chunks s) → Chars ((l.map Go.runeOf).flatMap units) (l.flatMap piece) := by
    intro l
    induction l with
    | nil => exact fun _ => .nil
    | cons x l ih =>
      intro h
      rw [List.map_cons, List.flatMap_cons, List.flatMap_cons]
      exact chars_piece (h x (by simp)) (ih fun y hy => h y (by simp [hy]))
  exact key _ fun _ h => h

theorem written_quote (s : Str) : Written (.str (reading s)) (quote s) := .str (chars_quote s)

/-- What `protojson` writes for a rune, and when. -/
theorem chars_ppiece {s x y : Str} (hx : x ∈ Go.chunks s) (hy : ppiece x = some y) {u : List Nat} {t : Str} (ht : Chars u t) :
    Chars (units (Go.runeOf x) ++ u) (y ++ t) := by
  rcases chunk_cases hx with ⟨c, rfl⟩ | ⟨b, rfl, hb⟩
  · obtain ⟨b, r, he, k1, k2⟩ := encode_head c
    rw [runeOf_encode]
    by_cases hc : c.toNat < 0x80
    · obtain ⟨kb, rfl⟩ := k1 hc
      have hb : b < 0x80 := UInt8.lt_iff_toNat_lt.2 (by rw [kb]; exact hc)
      rw [he] at hy
      rw [← kb]
      unfold ppiece at hy
      simp only [hb, if_true] at hy
      split at hy
      · rename_i h
        cases hy
        rcases h with rfl | rfl
        · exact chars_short (n := 0x22) (by decide) (by omega) ht
        · exact chars_short (n := 0x5C) (by decide) (by omega) ht
      · rename_i hq
        simp only [not_or] at hq
        split at hy
        · rename_i h
          cases hy
          exact chars_plain hb h hq.1 hq.2 ht
        · split at hy
          · rename_i h
            cases hy
            subst h
            exact chars_short (n := 0x08) (by decide) (by omega) ht
          · split at hy
            · rename_i h
              cases hy
              subst h
              exact chars_short (n := 0x0C) (by decide) (by omega) ht
            · split at hy
              · rename_i h
                cases hy
                subst h
                exact chars_short (n := 0x0A) (by decide) (by omega) ht
              · split at hy
                · rename_i h
                  cases hy
                  subst h
                  exact chars_short (n := 0x0D) (by decide) (by omega) ht
                · split at hy
                  · rename_i h
                    cases hy
                    subst h
                    exact chars_short (n := 0x09) (by decide) (by omega) ht
                  · cases hy
                    exact chars_hex2 (by omega) ht
    · have k := k2 (by omega)
      obtain ⟨b', r', rfl⟩ := List.exists_cons_of_ne_nil k.2.1
      have hp : ppiece (String.utf8EncodeChar c) = some (String.utf8EncodeChar c) := by
        rw [he]
        rfl
      rw [hp] at hy
      cases hy
      exact chars_wide (by omega) ht
  · rw [show ppiece [b] = none from if_neg hb] at hy
    cases hy

theorem ppiece_some (c : Char) : ∃ y, ppiece (String.utf8EncodeChar c) = some y := by
  obtain ⟨b, r, he, k1, k2⟩ := encode_head c
  by_cases hc : c.toNat < 0x80
  · obtain ⟨kb, rfl⟩ := k1 hc
    have hb : b < 0x80 := UInt8.lt_iff_toNat_lt.2 (by rw [kb]; exact hc)
    rw [he]
    unfold ppiece
    simp only [hb, if_true]
    repeat' split
    all_goals exact ⟨_, rfl⟩
  · have k := k2 (by omega)
    obtain ⟨b', r', rfl⟩ := List.exists_cons_of_ne_nil k.2.1
    exact ⟨_, by rw [he]; rfl⟩

theorem mapM_some {α β : Type} {f : α → Option β} : ∀ {l : List α}, (∀ x ∈ l, ∃ y, f x = some y) → ∃ r, l.mapM f = some r
  | [], _ => ⟨[], rfl⟩
  | x :: l, h => by
    obtain ⟨y, hy⟩ := h x (by simp)
    obtain ⟨r, hr⟩ := mapM_some (f := f) (l := l) fun z hz => h z (by simp [hz])
    exact ⟨y :: r, by simp [hy, hr]⟩

theorem mapM_cons_some {α β : Type} {f : α → Option β} {x : α} {l : List α} {r : List β} (h : (x :: l).mapM f = some r) :
    ∃ y r', f x = some y ∧ l.mapM f = some r' ∧ r = y :: r' := by
  rw [List.mapM_cons] at h
  cases hx : f x with
  | none => rw [hx] at h; cases h
  | some y =>
    rw [hx] at h
    cases hl : l.mapM f with
    | none => rw [hl] at h; cases h
    | some r' => rw [hl] at h; cases h; exact ⟨y, r', rfl, rfl, rfl⟩

theorem mapM_mem {α β : Type} {f : α → Option β} : ∀ {l : List α} {r : List β}, l.mapM f = some r → ∀ x ∈ l, ∃ y, f x = some y
  | [], _, _, _, hx => absurd hx (by simp)
  | a :: l, r, h, x, hx => by
    obtain ⟨y, r', hy, hr, _⟩ := mapM_cons_some h
    rcases List.mem_cons.1 hx with rfl | hx
    · exact ⟨y, hy⟩
    · exact mapM_mem hr x hx

/-- Strings that are not UTF-8 are an error, and only those. -/
theorem pquote_some {s : Str} : (∃ t, pquote s = some t) ↔ Utf8 s := by
  unfold pquote
  constructor
  · rintro ⟨t, h⟩
    cases hm : (Go.chunks s).mapM ppiece with
    | none => rw [hm] at h; cases h
    | some r =>
      have key : ∀ l : List Str, (∀ x ∈ l, ∃ c : Char, x = String.utf8EncodeChar c) → Utf8 l.flatten := by
        intro l
        induction l with
        | nil => exact fun _ => ⟨[], rfl⟩
        | cons x l ih =>
          intro h
          obtain ⟨c, rfl⟩ := h x (by simp)
          obtain ⟨cs, hcs⟩ := ih fun y hy => h y (by simp [hy])
          exact ⟨c :: cs, by simp [hcs]⟩
      rw [← Go.flatten_chunks s]
      refine key _ fun x hx => ?_
      rcases chunk_cases hx with h | ⟨b, rfl, hb⟩
      · exact h
      · obtain ⟨y, hy⟩ := mapM_mem hm _ hx
        rw [show ppiece [b] = none from if_neg hb] at hy
        cases hy
  · rintro ⟨cs, rfl⟩
    obtain ⟨r, hr⟩ := mapM_some (f := ppiece) (l := Go.chunks (cs.flatMap String.utf8EncodeChar)) (by
      rw [chunks_chars]
      intro x hx
      obtain ⟨c, _, rfl⟩ := List.mem_map.1 hx
      exact ppiece_some c)
    exact ⟨_, by rw [hr]; rfl⟩

/-- A written string is a string with that meaning. -/
theorem pquote_chars {s t : Str} (h : pquote s = some t) : ∃ x, t = 34 :: x ++ [34] ∧ Chars (reading s) x := by
  unfold pquote at h
  cases hm : (Go.chunks s).mapM ppiece with
  | none => rw [hm] at h; cases h
  | some r =>
    rw [hm] at h
    cases h
    have key : ∀ (l : List Str) (r : List Str), (∀ x ∈ l, x ∈ Go.chunks s) → l.mapM ppiece = some r →
        Chars ((l.map Go.runeOf).flatMap units) r.flatten := by
      intro l
      induction l with
      | nil =>
        intro r _ h
        cases h
        exact .nil
      | cons x l ih =>
        intro r h hr
        obtain ⟨y, r', hy, hr', rfl⟩ := mapM_cons_some hr
        rw [List.map_cons, List.flatMap_cons, List.flatten_cons]
        exact chars_ppiece (h x (by simp)) hy (ih r' (fun z hz => h z (by simp [hz])) hr')
    exact ⟨r.flatten, rfl, key _ r (fun _ h => h) hm⟩

/-! ### Objects and arrays -/

/-- Data with the texts written for them. -/
inductive Rows : List (Str × Datum) → List (Str × Str) → Prop
  | nil : Rows [] []
  | cons {k d l t ts v} : Written v t → Means d v → Rows l ts → Rows ((k, d) :: l) ((k, t) :: ts)

theorem Rows.append {l l' : List (Str × Datum)} {t t' : List (Str × Str)} (h : Rows l t) (h' : Rows l' t') : Rows (l ++ l') (t ++ t') := by
  induction h with
  | nil => exact h'
  | cons hw hm _ ih => exact .cons hw hm ih

/-- Two lists related item by item. -/
inductive Along {α β : Type} (R : α → β → Prop) : List α → List β → Prop
  | nil : Along R [] []
  | cons {a b l m} : R a b → Along R l m → Along R (a :: l) (b :: m)

theorem ws_nil : Ws [] := fun _ h => absurd h (by simp)

/-- Members that are written already. -/
theorem members_commas {sep : Str} (hs : Ws sep) : ∀ {ms : List (List Nat × Value)} {ts : List Str} (w : Str), Ws w → ms ≠ [] →
    Along (fun (m : List Nat × Value) (t : Str) => ∃ x y, t = 34 :: x ++ [34] ++ 58 :: y ∧ Chars m.1 x ∧ Written m.2 y) ms ts →
    Members ms (w ++ commas (44 :: sep) ts) := by
  intro ms ts w hw hne h
  induction h generalizing w with
  | nil => exact absurd rfl hne
  | @cons m t ms ts hm hr ih =>
    obtain ⟨x, y, rfl, hx, hy⟩ := hm
    obtain ⟨k, v⟩ := m
    cases hr with
    | nil =>
      have := Members.one hw hx ws_nil ws_nil hy ws_nil
      simpa [commas] using this
    | @cons m' t' ms' ts' hm' hr' =>
      have := Members.more hw hx ws_nil ws_nil hy ws_nil (ih sep hs (by simp))
      simpa [commas] using this

theorem elements_commas {sep : Str} (hs : Ws sep) : ∀ {vs : List Value} {ts : List Str} (w : Str), Ws w → vs ≠ [] →
    Along Written vs ts → Elements vs (w ++ commas (44 :: sep) ts) := by
  intro vs ts w hw hne h
  induction h generalizing w with
  | nil => exact absurd rfl hne
  | @cons v t vs ts hv hr ih =>
    cases hr with
    | nil =>
      have := Elements.one hw hv ws_nil
      simpa [commas] using this
    | @cons v' t' vs' ts' hv' hr' =>
      have := Elements.more hw hv ws_nil (ih sep hs (by simp))
      simpa [commas] using this

theorem written_obj {sep : Str} (hs : Ws sep) {ms : List (List Nat × Value)} {ts : List Str}
    (h : Along (fun (m : List Nat × Value) (t : Str) => ∃ x y, t = 34 :: x ++ [34] ++ 58 :: y ∧ Chars m.1 x ∧ Written m.2 y) ms ts) :
    Written (.obj ms) (123 :: commas (44 :: sep) ts ++ [125]) := by
  cases hms : ms with
  | nil =>
    subst hms
    cases h
    exact .noMembers ws_nil
  | cons m l =>
    rw [← hms]
    exact .obj (members_commas hs [] ws_nil (by simp [hms]) h)

theorem written_arr {sep : Str} (hs : Ws sep) {vs : List Value} {ts : List Str} (h : Along Written vs ts) :
    Written (.arr vs) (91 :: commas (44 :: sep) ts ++ [93]) := by
  cases hvs : vs with
  | nil =>
    subst hvs
    cases h
    exact .noElements ws_nil
  | cons m l =>
    rw [← hvs]
    exact .arr (elements_commas hs [] ws_nil (by simp [hvs]) h)

theorem object_written {l : List (Str × Datum)} {ts : List (Str × Str)} (h : Rows l ts) :
    ∃ v, Written v (object ts) ∧ Means (.obj l) v := by
  have key : ∃ ms, Along (fun (m : List Nat × Value) (t : Str) =>
      ∃ x y, t = 34 :: x ++ [34] ++ 58 :: y ∧ Chars m.1 x ∧ Written m.2 y) ms (ts.map fun m => quote m.1 ++ 58 :: m.2) ∧
      MeansFields l ms := by
    induction h with
    | nil => exact ⟨[], .nil, .nil⟩
    | @cons k d l t ts v hw hm _ ih =>
      obtain ⟨ms, h1, h2⟩ := ih
      exact ⟨(reading k, v) :: ms, .cons ⟨_, t, rfl, chars_quote k, hw⟩ h1, .cons hm h2⟩
  obtain ⟨ms, h1, h2⟩ := key
  exact ⟨_, written_obj ws_nil h1, .obj h2⟩

theorem says_of {t : Str} {d : Datum} (h : ∃ v, Written v t ∧ Means d v) : Says t d := by
  obtain ⟨v, hv, hm⟩ := h
  exact ⟨v, ⟨[], t, [], ws_nil, hv, ws_nil, by simp⟩, hm⟩

end Verif.Json
