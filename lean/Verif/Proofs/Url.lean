import Verif.Model.Url
import Verif.Spec.Uri
import Mathlib.Tactic.Common

/-! Facts about the model of `net/url`. -/
namespace Verif.Url
open Verif.Spec

theorem bytes {p : UInt8 → Prop} (h : ∀ n : Fin 256, p (UInt8.ofNat n)) (b : UInt8) : p b := by
  have := h ⟨b.toNat, b.toNat_lt⟩
  simpa using this

/-! ### Escaping -/

theorem unescape_hex (m : Mode) (a b : UInt8) (s : Str) :
    unescape m (37 :: a :: b :: s) =
      if !ishex a || !ishex b || badEscape m a b then none else (unescape m s).map ((unhex a * 16 + unhex b) :: ·) := rfl

theorem unescape_plus (m : Mode) (s : Str) :
    unescape m (43 :: s) = (unescape m s).map ((if m = .queryComponent then 32 else 43) :: ·) := by
  rw [unescape.eq_def]
  rfl

theorem unescape_byte (m : Mode) (c : UInt8) (s : Str) (h1 : c ≠ 37) (h2 : c ≠ 43) :
    unescape m (c :: s) = if badByte m c then none else (unescape m s).map (c :: ·) := by
  rw [unescape.eq_def]
  simp [h1, h2]

/-- What `escape` writes for a byte is read back by `unescape`. -/
theorem unescape_escapeByte (m : Mode) (hm : m ≠ .host ∧ m ≠ .zone) (c : UInt8) (s : Str) :
    unescape m (escapeByte m c ++ s) = (unescape m s).map (c :: ·) := by
  have key : ∀ c : UInt8,
      (¬ (c = 32 ∧ m = .queryComponent) → shouldEscape m c = true →
        ishex (upperhex (c / 16)) = true ∧ ishex (upperhex (c % 16)) = true ∧
        unhex (upperhex (c / 16)) * 16 + unhex (upperhex (c % 16)) = c) ∧
      (shouldEscape m c = false → c ≠ 37 ∧ (c = 43 → m ≠ .queryComponent) ∧ badByte m c = false) := by
    obtain ⟨h1, h2⟩ := hm
    apply bytes
    cases m <;> first | exact absurd rfl h1 | exact absurd rfl h2 | decide +kernel
  obtain ⟨k2, k3⟩ := key c
  have hbad : ∀ a b, badEscape m a b = false := by
    intro a b
    simp [badEscape, hm.1, hm.2]
  by_cases h : c = 32 ∧ m = .queryComponent
  · have : escapeByte m c = [43] := by simp [escapeByte, h]
    rw [this, List.singleton_append, unescape_plus]
    simp [h]
  · cases hs : shouldEscape m c with
    | true =>
      obtain ⟨a1, a2, a3⟩ := k2 h hs
      have : escapeByte m c = [37, upperhex (c / 16), upperhex (c % 16)] := by simp [escapeByte, h, hs]
      rw [this]
      simp only [List.cons_append, List.nil_append, unescape_hex, a1, a2, a3, hbad]
      simp
    | false =>
      obtain ⟨a1, a2, a3⟩ := k3 hs
      have : escapeByte m c = [c] := by simp [escapeByte, h, hs]
      rw [this, List.singleton_append]
      by_cases h43 : c = 43
      · subst h43
        simp [unescape_plus, a2 rfl]
      · simp [unescape_byte m c s a1 h43, a3]

theorem unescape_escape (m : Mode) (hm : m ≠ .host ∧ m ≠ .zone) (s : Str) : unescape m (escape m s) = some s := by
  induction s with
  | nil => rfl
  | cons c s ih =>
    have : escape m (c :: s) = escapeByte m c ++ escape m s := rfl
    rw [this, unescape_escapeByte m hm, ih]
    rfl

/-! ### What texts stand for -/

theorem hexDigit_unhex : ∀ a : UInt8, ishex a = true → hexDigit a = some (unhex a).toNat ∧ (unhex a).toNat < 16 := by
  apply bytes
  decide +kernel

theorem hex_byte (a b : UInt8) (ha : ishex a = true) (hb : ishex b = true) :
    UInt8.ofNat (16 * (unhex a).toNat + (unhex b).toNat) = unhex a * 16 + unhex b := by
  apply UInt8.toNat_inj.mp
  have h1 := (hexDigit_unhex a ha).2
  have h2 := (hexDigit_unhex b hb).2
  simp [UInt8.toNat_add, UInt8.toNat_mul]
  omega

theorem pct_hex (a b : UInt8) (s : Str) (ha : ishex a = true) (hb : ishex b = true) :
    pct (37 :: a :: b :: s) = (unhex a * 16 + unhex b) :: pct s := by
  rw [pct]
  simp only [if_true]
  rw [(hexDigit_unhex a ha).1, (hexDigit_unhex b hb).1]
  simp [hex_byte a b ha hb]

theorem pct_byte (c : UInt8) (s : Str) (h : c ≠ 37) : pct (c :: s) = c :: pct s := by
  rw [pct.eq_def]
  simp [h]

theorem pct_unescape_append (m : Mode) (hm : m ≠ .queryComponent) :
    ∀ (s t r : Str), unescape m s = some t → pct (s ++ r) = t ++ pct r
  | [], t, r, h => by cases h; rfl
  | c :: s, t, r, h => by
    by_cases h37 : c = 37
    · subst h37
      match s, h with
      | [], h => simp [unescape] at h
      | [_], h => simp [unescape] at h
      | a :: b :: s, h =>
        rw [unescape_hex] at h
        split at h
        · cases h
        · rename_i hok
          simp only [Bool.or_eq_true, Bool.not_eq_true', not_or, Bool.not_eq_false, Bool.not_eq_true] at hok
          obtain ⟨⟨ha, hb⟩, -⟩ := hok
          cases hs : unescape m s with
          | none => simp [hs] at h
          | some x =>
            rw [hs] at h
            cases h
            simp only [List.cons_append]
            rw [pct_hex a b _ ha hb, pct_unescape_append m hm s x r hs]
    · by_cases h43 : c = 43
      · subst h43
        rw [unescape_plus] at h
        cases hs : unescape m s with
        | none => simp [hs] at h
        | some x =>
          rw [hs] at h
          simp only [hm, if_false, Option.map_some, Option.some.injEq] at h
          subst h
          simp only [List.cons_append]
          rw [pct_byte _ _ h37, pct_unescape_append m hm s x r hs]
      · rw [unescape_byte m c s h37 h43] at h
        split at h
        · cases h
        · cases hs : unescape m s with
          | none => simp [hs] at h
          | some x =>
            rw [hs] at h
            cases h
            simp only [List.cons_append]
            rw [pct_byte _ _ h37, pct_unescape_append m hm s x r hs]

theorem pct_unescape {m : Mode} (hm : m ≠ .queryComponent) {s t : Str} (h : unescape m s = some t) : pct s = t := by
  have := pct_unescape_append m hm s t [] h
  simpa [pct] using this

/-- No percent-encoding reaches over an `@`. -/
theorem pct_at : ∀ x y : Str, pct (x ++ 64 :: y) = pct x ++ 64 :: pct y
  | [], y => pct_byte 64 y (by decide)
  | c :: x, y => by
    have ih := pct_at x y
    by_cases h37 : c = 37
    · subst h37
      have h64 : hexDigit 64 = none := by decide
      match x, ih with
      | [], ih =>
        have h : ∀ y : Str, pct (37 :: 64 :: y) = 37 :: pct (64 :: y) := by
          intro y
          cases y with
          | nil => rfl
          | cons b y => rw [pct.eq_def]; simp [h64]
        rw [List.cons_append, List.nil_append, h, pct_byte 64 y (by decide)]
        rfl
      | [a], ih =>
        have h : pct (37 :: a :: 64 :: y) = 37 :: pct (a :: 64 :: y) := by
          rw [pct.eq_def]
          cases hexDigit a <;> simp [h64]
        rw [List.cons_append, List.cons_append, List.nil_append, h]
        rw [List.cons_append, List.nil_append] at ih
        rw [ih]
        rfl
      | a :: b :: x, ih =>
        have hx := pct_at x y
        simp only [List.cons_append] at ih ⊢
        rw [pct.eq_def, pct.eq_def (37 :: a :: b :: x)]
        cases ha : hexDigit a with
        | none => simp [ih, ha]
        | some n =>
          cases hb : hexDigit b with
          | none => simp [ih, ha, hb]
          | some m => simp [ha, hb, hx]
    · rw [List.cons_append, pct_byte _ _ h37, ih, pct_byte _ _ h37]
      rfl

theorem pct_escapeByte (m : Mode) (hm : m ≠ .queryComponent) (c : UInt8) (s : Str) :
    pct (escapeByte m c ++ s) = c :: pct s := by
  have key : ∀ c : UInt8, ishex (upperhex (c / 16)) = true ∧ ishex (upperhex (c % 16)) = true ∧
        unhex (upperhex (c / 16)) * 16 + unhex (upperhex (c % 16)) = c := by
    apply bytes
    decide +kernel
  have k37 : shouldEscape m 37 = true := by cases m <;> decide
  obtain ⟨a1, a2, a3⟩ := key c
  cases hs : shouldEscape m c with
  | true =>
    have : escapeByte m c = [37, upperhex (c / 16), upperhex (c % 16)] := by simp [escapeByte, hm, hs]
    rw [this]
    simp only [List.cons_append, List.nil_append]
    rw [pct_hex _ _ _ a1 a2, a3]
  | false =>
    have h37 : c ≠ 37 := by
      rintro rfl
      rw [k37] at hs
      cases hs
    have : escapeByte m c = [c] := by simp [escapeByte, hm, hs]
    rw [this, List.singleton_append, pct_byte _ _ h37]

theorem pct_escape_append (m : Mode) (hm : m ≠ .queryComponent) (s r : Str) : pct (escape m s ++ r) = s ++ pct r := by
  induction s with
  | nil => rfl
  | cons c s ih =>
    have : escape m (c :: s) = escapeByte m c ++ escape m s := rfl
    rw [this, List.append_assoc, pct_escapeByte m hm, ih]
    rfl

theorem pct_escape {m : Mode} (hm : m ≠ .queryComponent) (s : Str) : pct (escape m s) = s := by
  simpa [pct] using pct_escape_append m hm s []

/-- The bytes that `escape` writes. -/
theorem mem_escape {m : Mode} {s : Str} {b : UInt8} (h : b ∈ escape m s) :
    b = 37 ∨ ishex b = true ∨ b = 43 ∨ (b ∈ s ∧ shouldEscape m b = false) := by
  obtain ⟨c, hc, hb⟩ := List.mem_flatMap.mp h
  have key : ∀ c : UInt8, ishex (upperhex (c / 16)) = true ∧ ishex (upperhex (c % 16)) = true := by
    apply bytes
    decide +kernel
  unfold escapeByte at hb
  split at hb
  · simp at hb; simp [hb]
  · split at hb
    · simp only [List.mem_cons, List.not_mem_nil, or_false] at hb
      rcases hb with rfl | rfl | rfl
      · simp
      · simp [(key c).1]
      · simp [(key c).2]
    · rename_i hs
      simp only [List.mem_singleton] at hb
      subst hb
      exact Or.inr (Or.inr (Or.inr ⟨hc, by simpa using hs⟩))

end Verif.Url
