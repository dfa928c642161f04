import Verif.Proofs.Utf8
import Verif.Spec.Blank

/-! White space of decoded strings is white space as bytes. -/
set_option linter.unusedSimpArgs false
namespace Verif.Go
open Verif.Spec

theorem bytes_all {p : UInt8 → Prop} (h : ∀ n : Fin 256, p (UInt8.ofNat n)) (b : UInt8) : p b := by
  have := h ⟨b.toNat, b.toNat_lt⟩
  simpa using this

theorem runeLen_two {b0 b1 : UInt8} {r : Str} (h : runeLen (b0 :: b1 :: r) = 2) :
    b0.toNat ≤ 0xDF ∧ b1.toNat ≤ 0xBF := by
  rcases r with _ | ⟨b2, _ | ⟨b3, r⟩⟩ <;> simp only [runeLen] at h
  all_goals
    split at h
    · simp at h
    · split at h
      · rename_i h2
        split at h
        · rename_i h1
          exact ⟨(inRange_toNat h2).2, (inRange_toNat h1).2⟩
        · simp at h
      · repeat' split at h
        all_goals simp at h

theorem runeLen_three {b0 b1 b2 : UInt8} {r : Str} (h : runeLen (b0 :: b1 :: b2 :: r) = 3) :
    b0.toNat ≤ 0xEF ∧ b1.toNat ≤ 0xBF ∧ b2.toNat ≤ 0xBF := by
  rcases r with _ | ⟨b3, r⟩ <;> simp only [runeLen] at h
  all_goals
    split at h
    · simp at h
    · split at h
      · split at h <;> simp at h
      · split at h
        · rename_i h3
          by_cases h1 : (inRange (if b0 == 0xE0 then 0xA0 else 0x80) (if b0 == 0xED then 0x9F else 0xBF) b1 && inRange 0x80 0xBF b2) = true
          · rw [Bool.and_eq_true] at h1
            have a := (inRange_toNat h1.1).2
            refine ⟨(inRange_toNat h3).2, ?_, (inRange_toNat h1.2).2⟩
            split at a
            · exact Nat.le_trans a (by decide)
            · exact a
          · rw [if_neg h1] at h
            simp at h
        · repeat' split at h
          all_goals simp at h

/-- A character that is white space is the encoding of its code point. -/
theorem encode_space {s c : Str} (hc : c ∈ chunks s) (h : isSpace c = true) : encodeRune (runeOf c) = c := by
  obtain ⟨t, ht, rfl⟩ := chunks_mem hc
  cases t with
  | nil => exact absurd rfl ht
  | cons b0 r =>
    have lt := fun b : UInt8 => b.toNat_lt
    have back : ∀ (b : UInt8) n, n = b.toNat → UInt8.ofNat n = b := fun b n e => by subst e; simp
    rcases runeLen_shape b0 r with hl | ⟨b1, r', rfl, hl, k0, k1⟩ | ⟨b1, b2, r', rfl, hl, k0, k1, k2, k3⟩ |
      ⟨b1, b2, b3, r', rfl, hl, k0, k1, k2, k3, k4⟩
    · rw [hl] at h ⊢
      by_cases hb : b0 < 0x80
      · simp only [List.take_succ_cons, List.take_zero, runeOf_byte hb, encodeRune]
        rw [if_pos (show b0.toNat < 128 from UInt8.lt_iff_toNat_lt.1 hb)]
        simp
      · have one : runeOf [b0] = 0xFFFD := if_neg hb
        simp only [List.take_succ_cons, List.take_zero, isSpace, one] at h
        exact absurd h (by decide)
    · obtain ⟨m0, m1⟩ := runeLen_two hl
      rw [hl]
      show encodeRune ((b0.toNat - 0xC0) * 64 + (b1.toNat - 0x80)) = [b0, b1]
      unfold encodeRune
      rw [if_neg (by omega), if_pos (by omega), back b0 _ (by omega), back b1 _ (by omega)]
    · obtain ⟨m0, m1, m2⟩ := runeLen_three hl
      rw [hl]
      show encodeRune (((b0.toNat - 0xE0) * 64 + (b1.toNat - 0x80)) * 64 + (b2.toNat - 0x80)) = [b0, b1, b2]
      unfold encodeRune
      rw [if_neg (by omega), if_neg (by omega), if_pos (by omega), back b0 _ (by omega), back b1 _ (by omega), back b2 _ (by omega)]
    · rw [hl] at h
      exfalso
      have h : isSpaceRune ((((b0.toNat - 0xF0) * 64 + (b1.toNat - 0x80)) * 64 + (b2.toNat - 0x80)) * 64 + (b3.toNat - 0x80)) = true := h
      generalize e : (((b0.toNat - 0xF0) * 64 + (b1.toNat - 0x80)) * 64 + (b2.toNat - 0x80)) * 64 + (b3.toNat - 0x80) = n at h
      simp only [isSpaceRune, Bool.or_eq_true, Bool.and_eq_true, beq_iff_eq,
        decide_eq_true_eq] at h
      omega

theorem space_mem {r : Nat} (h : isSpaceRune r = true) : encodeRune r ∈ blanks := by
  have hr : r < 0x3001 := by
    simp only [isSpaceRune, Bool.or_eq_true, Bool.and_eq_true, beq_iff_eq, decide_eq_true_eq] at h
    omega
  have hl : r ∈ [0x09, 0x0A, 0x0B, 0x0C, 0x0D, 0x20, 0x85, 0xA0, 0x1680, 0x2000, 0x2001, 0x2002, 0x2003, 0x2004, 0x2005, 0x2006, 0x2007,
      0x2008, 0x2009, 0x200A, 0x2028, 0x2029, 0x202F, 0x205F, 0x3000] := by
    simp only [isSpaceRune, Bool.or_eq_true, Bool.and_eq_true, beq_iff_eq, decide_eq_true_eq] at h
    simp only [List.mem_cons, List.not_mem_nil, or_false]
    omega
  clear h hr
  revert r
  decide

theorem isSpace_of_blank : ∀ c ∈ blanks, isSpace c = true := by decide

/-- The white space characters of a string are the 25 blanks. -/
theorem isSpace_iff {s c : Str} (hc : c ∈ chunks s) : isSpace c = true ↔ c ∈ blanks :=
  ⟨fun h => by rw [← encode_space hc h]; exact space_mem h, isSpace_of_blank c⟩

/-- A blank is a character of its own wherever it stands. -/
theorem runeLen_blank : ∀ c ∈ blanks, ∀ t : Str, runeLen (c ++ t) = c.length := by
  intro c hc t
  simp only [blanks, List.mem_cons, List.not_mem_nil, or_false] at hc
  rcases hc with rfl | rfl | rfl | rfl | rfl | rfl | rfl | rfl | rfl | rfl | rfl | rfl | rfl | rfl | rfl | rfl | rfl | rfl | rfl | rfl |
    rfl | rfl | rfl | rfl | rfl <;> simp [runeLen, inRange]

theorem blank_ne {c : Str} (h : c ∈ blanks) : c ≠ [] := by
  rintro rfl
  revert h
  decide

theorem chunks_blank {c : Str} (hc : c ∈ blanks) (t : Str) : chunks (c ++ t) = c :: chunks t := by
  rw [chunks_ne (by simp [blank_ne hc]), runeLen_blank c hc]
  simp

/-- Bytes that continue no character end the one before. -/
theorem runeLen_start {s : Str} {b : UInt8} (t : Str) (hs : s ≠ []) (hb : inRange 0x80 0xBF b = false) :
    runeLen (s ++ b :: t) = runeLen s := by
  have hr : ∀ lo hi : UInt8, 0x80 ≤ lo → hi ≤ 0xBF → inRange lo hi b = false := by
    intro lo hi h h'
    simp only [inRange, Bool.and_eq_false_iff, decide_eq_false_iff_not, UInt8.le_iff_toNat_le] at *
    simp only [show (0x80 : UInt8).toNat = 0x80 from rfl, show (0xBF : UInt8).toNat = 0xBF from rfl] at *
    omega
  cases s with
  | nil => exact absurd rfl hs
  | cons b0 r =>
    have e2 : inRange (if b0 = 0xE0 then 0xA0 else 0x80) (if b0 = 0xED then 0x9F else 0xBF) b = false := by
      apply hr <;> split <;> decide
    have e3 : inRange (if b0 = 0xF0 then 0x90 else 0x80) (if b0 = 0xF4 then 0x8F else 0xBF) b = false := by
      apply hr <;> split <;> decide
    rcases r with _ | ⟨b1, _ | ⟨b2, _ | ⟨b3, r⟩⟩⟩
    · rcases t with _ | ⟨c, _ | ⟨c2, t⟩⟩ <;> simp [runeLen, hb, e2, e3]
    · rcases t with _ | ⟨c, t⟩ <;> simp [runeLen, hb, e2, e3]
    · simp [runeLen, hb, e2, e3]
    · simp [runeLen]

theorem blank_start {c : Str} (hc : c ∈ blanks) : ∃ b u, c = b :: u ∧ inRange 0x80 0xBF b = false := by
  have : ∀ c ∈ blanks, (match c with | [] => false | b :: _ => !inRange 0x80 0xBF b) = true := by decide
  have h := this c hc
  cases c with
  | nil => simp at h
  | cons b u => exact ⟨b, u, rfl, by simpa using h⟩

theorem chunks_append_blank {c : Str} (hc : c ∈ blanks) (t : Str) : ∀ s : Str, chunks (s ++ (c ++ t)) = chunks s ++ c :: chunks t := by
  obtain ⟨b, u, rfl, hb⟩ := blank_start hc
  intro s
  induction hn : s.length using Nat.strongRecOn generalizing s with
  | ind n ih =>
    cases s with
    | nil => exact chunks_blank hc t
    | cons a s =>
      have h1 := runeLen_pos a s
      have hle := runeLen_le (a :: s)
      have e : runeLen (a :: s ++ (b :: u ++ t)) = runeLen (a :: s) := runeLen_start (u ++ t) (List.cons_ne_nil a s) hb
      rw [chunks_ne (by simp), e, List.take_append_of_le_length hle, List.drop_append_of_le_length hle,
        ih _ (by subst hn; simp only [List.length_drop, List.length_cons]; omega) _ rfl, chunks_cons]
      rfl

/-- `strings.TrimSpace` removes the blanks around a string, and nothing else. -/
theorem trimSpace_trimmed (s : Str) : Trimmed s (trimSpace s) := by
  have key : ∃ l m r, chunks s = l ++ m ++ r ∧ (∀ c ∈ l ++ r, isSpace c = true) ∧ trimSpace s = m.flatten ∧
      (∀ c, m.head? = some c → isSpace c = false) ∧ ∀ c, m.getLast? = some c → isSpace c = false := by
    have h1 := (List.takeWhile_append_dropWhile (p := isSpace) (l := chunks s)).symm
    have h2 := (List.takeWhile_append_dropWhile (p := isSpace) (l := ((chunks s).dropWhile isSpace).reverse)).symm
    have h2' := congrArg List.reverse h2
    rw [List.reverse_reverse, List.reverse_append] at h2'
    refine ⟨(chunks s).takeWhile isSpace, (((chunks s).dropWhile isSpace).reverse.dropWhile isSpace).reverse,
      (((chunks s).dropWhile isSpace).reverse.takeWhile isSpace).reverse, ?_, ?_, rfl, ?_, ?_⟩
    · rw [List.append_assoc, ← h2']; exact h1
    · intro c hc
      rcases List.mem_append.1 hc with h | h
      · exact List.all_eq_true.1 List.all_takeWhile c h
      · exact List.all_eq_true.1 List.all_takeWhile c (List.mem_reverse.1 h)
    · intro c hc
      have : ((chunks s).dropWhile isSpace).head? = some c := by
        rw [h2']
        cases hm : (((chunks s).dropWhile isSpace).reverse.dropWhile isSpace).reverse with
        | nil => rw [hm] at hc; simp at hc
        | cons a m => rw [hm] at hc; simpa using hc
      have h := List.head?_dropWhile_not isSpace (chunks s)
      rw [this] at h
      simpa using h
    · intro c hc
      rw [List.getLast?_reverse] at hc
      have h := List.head?_dropWhile_not isSpace ((chunks s).dropWhile isSpace).reverse
      rw [hc] at h
      simpa using h
  obtain ⟨l, m, r, hs, hlr, ht, hh, hlast⟩ := key
  have hm : chunks m.flatten = m := chunks_segment hs
  refine ⟨⟨l, r, ?_, fun c hc => ?_⟩, fun c hc => ⟨?_, ?_⟩⟩
  · rw [ht, ← List.flatten_append, ← List.flatten_append, ← hs, flatten_chunks]
  · refine (isSpace_iff (s := s) ?_).1 (hlr c hc)
    rw [hs]
    rcases List.mem_append.1 hc with h | h <;> simp [h]
  · rintro ⟨u, hu⟩
    rw [ht] at hu
    have := chunks_blank hc u
    rw [hu, hm] at this
    have h := hh c (by rw [this]; rfl)
    rw [isSpace_of_blank c hc] at h
    cases h
  · rintro ⟨u, hu⟩
    rw [ht] at hu
    have := chunks_append_blank hc [] u
    rw [List.append_nil, hu, hm] at this
    have h := hlast c (by rw [this]; simp [chunks, chunksAux])
    rw [isSpace_of_blank c hc] at h
    cases h

/-- What is left is determined. -/
theorem trimmed_iff (s t : Str) : Trimmed s t ↔ trimSpace s = t := by
  refine ⟨?_, fun h => h ▸ trimSpace_trimmed s⟩
  rintro ⟨⟨l, r, rfl, hlr⟩, hb⟩
  have hpre : ∀ (l : List Str), (∀ c ∈ l, c ∈ blanks) → ∀ u, chunks (l.flatten ++ u) = l ++ chunks u := by
    intro l
    induction l with
    | nil => simp
    | cons c l ih =>
      intro h u
      rw [List.flatten_cons, List.append_assoc, chunks_blank (h c (by simp)), ih (fun x hx => h x (by simp [hx]))]
      rfl
  have hsuf : ∀ (r : List Str), (∀ c ∈ r, c ∈ blanks) → ∀ u, chunks (u ++ r.flatten) = chunks u ++ r := by
    intro r h u
    cases r with
    | nil => simp
    | cons c r =>
      rw [List.flatten_cons, chunks_append_blank (h c (by simp))]
      have := hpre r (fun x hx => h x (by simp [hx])) []
      rw [List.append_nil] at this
      rw [this]
      simp [chunks, chunksAux]
  have hl : ∀ c ∈ l, c ∈ blanks := fun c hc => hlr c (by simp [hc])
  have hr : ∀ c ∈ r, c ∈ blanks := fun c hc => hlr c (by simp [hc])
  have hd : ∀ (a : List Str), (∀ c ∈ a, c ∈ blanks) → ∀ b : List Str, (∀ c, b.head? = some c → isSpace c = false) →
      (a ++ b).dropWhile isSpace = b := by
    intro a ha b hb
    rw [List.dropWhile_append_of_pos (fun c hc => isSpace_of_blank c (ha c hc))]
    cases b with
    | nil => rfl
    | cons c b => rw [List.dropWhile_cons_of_neg]; simp [hb c rfl]
  unfold trimSpace
  rw [List.append_assoc, hpre l hl, hsuf r hr]
  by_cases ht : t = []
  · subst ht
    have : (l ++ ([] ++ r)).dropWhile isSpace = [] := by
      simpa using hd (l ++ r) hlr [] (by simp)
    have e : chunks ([] : Str) = [] := rfl
    rw [e, this]
    rfl
  · have h1 : ∀ c, (chunks t).head? = some c → isSpace c = false := by
      intro c hc
      rw [← Bool.not_eq_true]
      intro hsp
      have hmem : c ∈ chunks t := List.mem_of_head? hc
      refine (hb c ((isSpace_iff hmem).1 hsp)).1 ?_
      rw [← flatten_chunks t]
      cases hk : chunks t with
      | nil => rw [hk] at hc; simp at hc
      | cons a m => rw [hk] at hc; simp at hc; subst hc; simp
    have h2 : ∀ c, (chunks t).reverse.head? = some c → isSpace c = false := by
      intro c hc
      rw [List.head?_reverse] at hc
      rw [← Bool.not_eq_true]
      intro hsp
      have hmem : c ∈ chunks t := List.mem_of_getLast? hc
      refine (hb c ((isSpace_iff hmem).1 hsp)).2 ?_
      obtain ⟨ys, hk⟩ := List.getLast?_eq_some_iff.1 hc
      have := flatten_chunks t
      rw [hk, List.flatten_append] at this
      exact ⟨ys.flatten, by simpa using this⟩
    have h3 : ∀ c, (chunks t ++ r).head? = some c → isSpace c = false := by
      intro c hc
      cases hk : chunks t with
      | nil => exact absurd (chunks_eq_nil.1 hk) ht
      | cons a m => rw [hk] at hc; exact h1 c (by rw [hk]; simpa using hc)
    rw [hd l hl _ h3, List.reverse_append, hd r.reverse (fun c hc => hr c (List.mem_reverse.1 hc)) _ h2, List.reverse_reverse,
      flatten_chunks]

end Verif.Go
