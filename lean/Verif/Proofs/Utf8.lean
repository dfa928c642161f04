import Verif.Go.Str

/-! Decoding of UTF-8: how the runes of parts relate to the runes of the whole. -/
set_option linter.unusedSimpArgs false
namespace Verif.Go

theorem runeLen_pos (b : UInt8) (r : Str) : 1 ≤ runeLen (b :: r) := by
  simp only [runeLen]
  repeat' split
  all_goals simp

theorem runeLen_le (s : Str) : runeLen s ≤ s.length := by
  cases s with
  | nil => simp [runeLen]
  | cons b r =>
    rcases r with _ | ⟨b1, _ | ⟨b2, _ | ⟨b3, r⟩⟩⟩ <;> simp only [runeLen] <;> repeat' split
    all_goals simp

/-- What follows a rune does not matter for it. -/
theorem runeLen_append {s : Str} (t : Str) (hs : s ≠ []) (h : runeLen (s ++ t) ≤ s.length) :
    runeLen (s ++ t) = runeLen s := by
  cases s with
  | nil => exact absurd rfl hs
  | cons b r =>
    rcases r with _ | ⟨b1, _ | ⟨b2, _ | ⟨b3, r⟩⟩⟩
    · have h1 := runeLen_pos b t
      have h2 := runeLen_pos b []
      have h3 := runeLen_le [b]
      simp at h h3 ⊢
      omega
    · rcases t with _ | ⟨c, t⟩
      · simp
      · revert h
        simp only [runeLen, List.cons_append, List.nil_append, List.length_cons, List.length_nil]
        rcases t with _ | ⟨c2, t⟩ <;> repeat' split
        all_goals simp
    · rcases t with _ | ⟨c, t⟩
      · simp
      · revert h
        simp only [runeLen, List.cons_append, List.nil_append, List.length_cons, List.length_nil]
        repeat' split
        all_goals simp
    · simp [runeLen]

/-- An ASCII byte ends a rune. -/
theorem runeLen_ascii {s : Str} {b : UInt8} (t : Str) (hs : s ≠ []) (hb : b < 0x80) :
    runeLen (s ++ b :: t) = runeLen s := by
  have hr : ∀ lo hi : UInt8, 0x80 ≤ lo → inRange lo hi b = false := by
    intro lo hi h
    simp only [inRange, Bool.and_eq_false_iff, decide_eq_false_iff_not]
    left
    rw [UInt8.le_iff_toNat_le] at *
    rw [UInt8.lt_iff_toNat_lt] at hb
    omega
  cases s with
  | nil => exact absurd rfl hs
  | cons b0 r =>
    have e1 := hr 0x80 0xBF (by decide)
    have e2 : ∀ hi, inRange (if b0 = 0xE0 then 0xA0 else 0x80) hi b = false := by
      intro hi; apply hr; split <;> decide
    have e3 : ∀ hi, inRange (if b0 = 0xF0 then 0x90 else 0x80) hi b = false := by
      intro hi; apply hr; split <;> decide
    rcases r with _ | ⟨b1, _ | ⟨b2, _ | ⟨b3, r⟩⟩⟩
    · rcases t with _ | ⟨c, _ | ⟨c2, t⟩⟩ <;> simp [runeLen, e1, e2, e3]
    · rcases t with _ | ⟨c, t⟩ <;> simp [runeLen, e1, e2, e3]
    · simp [runeLen, e1, e2, e3]
    · simp [runeLen]

theorem chunksAux_fuel : ∀ (n : Nat) (s : Str), s.length ≤ n → chunksAux n s = chunksAux s.length s := by
  intro n
  induction n using Nat.strongRecOn with
  | ind n ih =>
    intro s h
    cases s with
    | nil => cases n <;> rfl
    | cons b r =>
      cases n with
      | zero => simp at h
      | succ n =>
        have h1 := runeLen_pos b r
        have hl : ((b :: r).drop (runeLen (b :: r))).length ≤ r.length := by
          simp only [List.length_drop, List.length_cons]; omega
        simp only [List.length_cons] at h
        show _ :: _ = _ :: _
        rw [ih n (by omega) _ (by omega)]
        congr 1
        by_cases hn : r.length < n + 1
        · rw [ih r.length hn _ hl]
        · omega

@[simp] theorem chunks_nil : chunks [] = [] := rfl

theorem chunks_cons (b : UInt8) (r : Str) :
    chunks (b :: r) = (b :: r).take (runeLen (b :: r)) :: chunks ((b :: r).drop (runeLen (b :: r))) := by
  have h1 := runeLen_pos b r
  unfold chunks
  show _ :: _ = _ :: _
  congr 1
  exact chunksAux_fuel _ _ (by simp only [List.length_drop, List.length_cons]; omega)

theorem chunks_ne {s : Str} (h : s ≠ []) : chunks s = s.take (runeLen s) :: chunks (s.drop (runeLen s)) := by
  cases s with
  | nil => exact absurd rfl h
  | cons b r => exact chunks_cons b r

theorem flatten_chunks (s : Str) : (chunks s).flatten = s := by
  induction hn : s.length using Nat.strongRecOn generalizing s with
  | ind n ih =>
    cases s with
    | nil => rfl
    | cons b r =>
      have h1 := runeLen_pos b r
      rw [chunks_cons, List.flatten_cons, ih _ (by subst hn; simp only [List.length_drop, List.length_cons]; omega) _ rfl,
        List.take_append_drop]

theorem chunks_eq_nil {s : Str} : chunks s = [] ↔ s = [] := by
  constructor
  · intro h
    rw [← flatten_chunks s, h]
    rfl
  · rintro rfl; rfl

/-- A suffix of the runes are the runes of the suffix. -/
theorem chunks_drop {s : Str} : ∀ {l m : List Str}, chunks s = l ++ m → chunks m.flatten = m := by
  induction hn : s.length using Nat.strongRecOn generalizing s with
  | ind n ih =>
    intro l m h
    cases l with
    | nil => rw [← (by simpa using h : chunks s = m), flatten_chunks]
    | cons c l =>
      cases s with
      | nil => simp at h
      | cons b r =>
        have h1 := runeLen_pos b r
        rw [chunks_cons] at h
        simp only [List.cons_append, List.cons.injEq] at h
        exact ih _ (by subst hn; simp only [List.length_drop, List.length_cons]; omega) rfl h.2

/-- A prefix of the runes are the runes of the prefix. -/
theorem chunks_take : ∀ {m r : List Str} {s : Str}, chunks s = m ++ r → chunks m.flatten = m
  | [], _, _, _ => rfl
  | c :: m, r, [], h => by simp at h
  | c :: m, r, b :: s, h => by
    have h1 := runeLen_pos b s
    have hle := runeLen_le (b :: s)
    rw [chunks_cons] at h
    simp only [List.cons_append, List.cons.injEq] at h
    have ih := chunks_take h.2
    have hs : b :: s = (c :: m).flatten ++ r.flatten := by
      rw [← flatten_chunks (b :: s), chunks_cons, h.1, h.2]
      simp
    have hc : c.length = runeLen (b :: s) := by rw [← h.1, List.length_take]; omega
    have hne : (c :: m).flatten ≠ [] := by
      intro h0
      have : c = [] := by simpa using (List.flatten_eq_nil_iff.1 h0) c (by simp)
      rw [this] at hc; simp at hc; omega
    have hl : runeLen (c :: m).flatten = c.length := by
      rw [hc, hs]
      exact (runeLen_append _ hne (by rw [← hs, ← hc]; simp)).symm
    rw [chunks_ne hne, hl]
    simp [ih]

/-- Consecutive runes are the runes of the string they make up. -/
theorem chunks_segment {s : Str} {l m r : List Str} (h : chunks s = l ++ m ++ r) : chunks m.flatten = m := by
  rw [List.append_assoc] at h
  exact chunks_take (chunks_drop h)

theorem runeLen_byte {b : UInt8} (hb : b < 0x80) (t : Str) : runeLen (b :: t) = 1 := by simp [runeLen, hb]

theorem chunks_byte {b : UInt8} (hb : b < 0x80) (t : Str) : chunks (b :: t) = [b] :: chunks t := by
  rw [chunks_cons, runeLen_byte hb]
  simp

/-- An ASCII byte separates the runes before it from the ones after it. -/
theorem chunks_append {b : UInt8} (hb : b < 0x80) (t : Str) : ∀ s : Str, chunks (s ++ b :: t) = chunks s ++ [b] :: chunks t := by
  intro s
  induction hn : s.length using Nat.strongRecOn generalizing s with
  | ind n ih =>
    cases s with
    | nil => exact chunks_byte hb t
    | cons c s =>
      have h1 := runeLen_pos c s
      have hle := runeLen_le (c :: s)
      have e := runeLen_ascii t (List.cons_ne_nil c s) hb
      rw [chunks_ne (by simp), e, List.take_append_of_le_length hle, List.drop_append_of_le_length hle,
        ih _ (by subst hn; simp only [List.length_drop, List.length_cons]; omega) _ rfl, chunks_cons]
      rfl

/-- ASCII text. -/
def Ascii (s : Str) : Prop := ∀ b ∈ s, b < 0x80

instance (s : Str) : Decidable (Ascii s) := inferInstanceAs (Decidable (∀ b ∈ s, b < 0x80))

theorem chunks_ascii {s : Str} (h : Ascii s) : chunks s = s.map fun b => [b] := by
  induction s with
  | nil => rfl
  | cons b s ih =>
    rw [chunks_byte (h b (by simp)), ih (fun x hx => h x (by simp [hx]))]
    rfl

theorem runeOf_byte {b : UInt8} (hb : b < 0x80) : runeOf [b] = b.toNat := if_pos hb

theorem runes_ascii {s : Str} (h : Ascii s) : runes s = s.map UInt8.toNat := by
  unfold runes
  rw [chunks_ascii h, List.map_map]
  exact List.map_congr_left fun b hb => runeOf_byte (h b hb)

@[simp] theorem runes_nil : runes [] = [] := rfl

theorem runes_append {b : UInt8} (hb : b < 0x80) (s t : Str) : runes (s ++ b :: t) = runes s ++ b.toNat :: runes t := by
  unfold runes
  rw [chunks_append hb]
  simp [runeOf_byte hb]

theorem runes_eq_nil {s : Str} : runes s = [] ↔ s = [] := by simp [runes, chunks_eq_nil]

theorem chunks_mem {s c : Str} (h : c ∈ chunks s) : ∃ t, t ≠ [] ∧ c = t.take (runeLen t) := by
  induction hn : s.length using Nat.strongRecOn generalizing s with
  | ind n ih =>
    cases s with
    | nil => simp at h
    | cons b r =>
      have h1 := runeLen_pos b r
      rw [chunks_cons, List.mem_cons] at h
      rcases h with h | h
      · exact ⟨b :: r, by simp, h⟩
      · exact ih _ (by subst hn; simp only [List.length_drop, List.length_cons]; omega) h rfl

theorem inRange_toNat {lo hi b : UInt8} (h : inRange lo hi b = true) : lo.toNat ≤ b.toNat ∧ b.toNat ≤ hi.toNat := by
  simpa [inRange, UInt8.le_iff_toNat_le] using h

/-- The shape of the first rune of a string. -/
theorem runeLen_shape (b0 : UInt8) (r : Str) :
    runeLen (b0 :: r) = 1 ∨
    (∃ b1 r', r = b1 :: r' ∧ runeLen (b0 :: r) = 2 ∧ 0xC2 ≤ b0.toNat ∧ 0x80 ≤ b1.toNat) ∨
    (∃ b1 b2 r', r = b1 :: b2 :: r' ∧ runeLen (b0 :: r) = 3 ∧ 0xE0 ≤ b0.toNat ∧ 0x80 ≤ b1.toNat ∧ 0x80 ≤ b2.toNat ∧
      (b0.toNat = 0xE0 → 0xA0 ≤ b1.toNat)) ∨
    (∃ b1 b2 b3 r', r = b1 :: b2 :: b3 :: r' ∧ runeLen (b0 :: r) = 4 ∧ 0xF0 ≤ b0.toNat ∧ 0x80 ≤ b1.toNat ∧
      0x80 ≤ b2.toNat ∧ 0x80 ≤ b3.toNat ∧ (b0.toNat = 0xF0 → 0x90 ≤ b1.toNat)) := by
  by_cases hb : b0 < 0x80
  · exact .inl (runeLen_byte hb r)
  by_cases h2 : inRange 0xC2 0xDF b0 = true
  · cases r with
    | nil => left; simp [runeLen, hb, h2]
    | cons b1 r' =>
      by_cases h : inRange 0x80 0xBF b1 = true
      · exact .inr (.inl ⟨b1, r', rfl, by simp [runeLen, hb, h2, h], (inRange_toNat h2).1, (inRange_toNat h).1⟩)
      · left; simp [runeLen, hb, h2, h]
  by_cases h3 : inRange 0xE0 0xEF b0 = true
  · rcases r with _ | ⟨b1, _ | ⟨b2, r'⟩⟩
    · left; simp [runeLen, hb, h2, h3]
    · left; simp [runeLen, hb, h2, h3]
    · by_cases h : inRange (if b0 = 0xE0 then 0xA0 else 0x80) (if b0 = 0xED then 0x9F else 0xBF) b1 = true ∧ inRange 0x80 0xBF b2 = true
      · refine .inr (.inr (.inl ⟨b1, b2, r', rfl, by simp [runeLen, hb, h2, h3, h], (inRange_toNat h3).1, ?_, (inRange_toNat h.2).1, ?_⟩))
        · have := (inRange_toNat h.1).1
          split at this
          · exact Nat.le_trans (by decide) this
          · exact this
        · intro h0
          have := (inRange_toNat h.1).1
          rw [if_pos (UInt8.toNat_inj.1 h0)] at this
          exact this
      · left; simp [runeLen, hb, h2, h3, h]
  by_cases h4 : inRange 0xF0 0xF4 b0 = true
  · rcases r with _ | ⟨b1, _ | ⟨b2, _ | ⟨b3, r'⟩⟩⟩
    · left; simp [runeLen, hb, h2, h3, h4]
    · left; simp [runeLen, hb, h2, h3, h4]
    · left; simp [runeLen, hb, h2, h3, h4]
    · by_cases h : (inRange (if b0 = 0xF0 then 0x90 else 0x80) (if b0 = 0xF4 then 0x8F else 0xBF) b1 = true ∧
          inRange 0x80 0xBF b2 = true) ∧ inRange 0x80 0xBF b3 = true
      · refine .inr (.inr (.inr ⟨b1, b2, b3, r', rfl, by simp [runeLen, hb, h2, h3, h4, h], (inRange_toNat h4).1, ?_,
          (inRange_toNat h.1.2).1, (inRange_toNat h.2).1, ?_⟩))
        · have := (inRange_toNat h.1.1).1
          split at this
          · exact Nat.le_trans (by decide) this
          · exact this
        · intro h0
          have := (inRange_toNat h.1.1).1
          rw [if_pos (UInt8.toNat_inj.1 h0)] at this
          exact this
      · left; simp [runeLen, hb, h2, h3, h4, h]
  · left; simp [runeLen, hb, h2, h3, h4]

/-- Only ASCII bytes stand for ASCII runes. -/
theorem runeOf_ascii {s c : Str} (hc : c ∈ chunks s) (h : runeOf c < 0x80) : ∃ b, c = [b] ∧ b < 0x80 ∧ runeOf c = b.toNat := by
  obtain ⟨t, ht, rfl⟩ := chunks_mem hc
  cases t with
  | nil => exact absurd rfl ht
  | cons b0 r =>
    rcases runeLen_shape b0 r with hl | ⟨b1, r', rfl, hl, k0, k1⟩ | ⟨b1, b2, r', rfl, hl, k0, k1, k2, k3⟩ |
      ⟨b1, b2, b3, r', rfl, hl, k0, k1, k2, k3, k4⟩
    · rw [hl] at h ⊢
      by_cases hb : b0 < 0x80
      · exact ⟨b0, rfl, hb, runeOf_byte hb⟩
      · have one : runeOf [b0] = 0xFFFD := if_neg hb
        rw [List.take_succ_cons, List.take_zero, one] at h
        omega
    · rw [hl] at h
      have h : (b0.toNat - 0xC0) * 64 + (b1.toNat - 0x80) < 0x80 := h
      omega
    · rw [hl] at h
      have h : ((b0.toNat - 0xE0) * 64 + (b1.toNat - 0x80)) * 64 + (b2.toNat - 0x80) < 0x80 := h
      omega
    · rw [hl] at h
      have h : (((b0.toNat - 0xF0) * 64 + (b1.toNat - 0x80)) * 64 + (b2.toNat - 0x80)) * 64 + (b3.toNat - 0x80) < 0x80 := h
      omega

/-- A string all of whose runes are ASCII is ASCII. -/
theorem ascii_of_runes {s : Str} (h : ∀ r ∈ runes s, r < 0x80) : Ascii s := by
  intro b hb
  rw [← flatten_chunks s] at hb
  obtain ⟨c, hc, hb⟩ := List.mem_flatten.1 hb
  obtain ⟨b', rfl, hb', _⟩ := runeOf_ascii hc (h _ (List.mem_map.2 ⟨c, hc, rfl⟩))
  simp at hb
  exact hb ▸ hb'

theorem aboveAscii_le (r : Nat) : 0x80 ≤ aboveAscii r := by
  unfold aboveAscii; split <;> omega

theorem foldRune_lower {r : Nat} (h : r < 0x80) : foldRune r = lowerRune r := by
  unfold foldRune lowerRune; rw [if_pos h, if_pos h]

theorem lowerAscii_lt {r : Nat} (h : r < 0x80) : lowerAscii r < 0x80 := by
  unfold lowerAscii; split <;> omega

/-- Apart from `s` and `k`, only ASCII runes fold to ASCII. -/
theorem foldRune_ascii {r n : Nat} (h : foldRune r = n) (hn : n < 0x80) (hs : n ≠ 115) (hk : n ≠ 107) : r < 0x80 := by
  by_cases hr : r < 0x80
  · exact hr
  · unfold foldRune at h
    rw [if_neg hr] at h
    split at h
    · exact absurd h.symm hs
    split at h
    · exact absurd h.symm hk
    · have := aboveAscii_le (foldTable r)
      omega

/-- A string equal up to case to an ASCII string without `s` and `k` is ASCII. -/
theorem fold_ascii {s t : Str} (h : (runes s).map foldRune = (runes t).map foldRune) (ht : Ascii t)
    (hsk : ∀ b ∈ t, b ≠ 115 ∧ b ≠ 83 ∧ b ≠ 107 ∧ b ≠ 75) : Ascii s := by
  apply ascii_of_runes
  intro r hr
  have : foldRune r ∈ (runes t).map foldRune := h ▸ List.mem_map.2 ⟨r, hr, rfl⟩
  rw [runes_ascii ht, List.map_map] at this
  obtain ⟨b, hb, hbr⟩ := List.mem_map.1 this
  have hb8 : b.toNat < 0x80 := ht b hb
  obtain ⟨h1, h2, h3, h4⟩ := hsk b hb
  have ne : ∀ {c : UInt8}, b ≠ c → b.toNat ≠ c.toNat := fun hc e => hc (UInt8.toNat_inj.1 e)
  have h1 : b.toNat ≠ 115 := ne h1
  have h2 : b.toNat ≠ 83 := ne h2
  have h3 : b.toNat ≠ 107 := ne h3
  have h4 : b.toNat ≠ 75 := ne h4
  have hf : foldRune b.toNat = lowerAscii b.toNat := if_pos hb8
  have hbr : lowerAscii b.toNat = foldRune r := hf ▸ hbr
  refine foldRune_ascii hbr.symm (lowerAscii_lt hb8) ?_ ?_ <;> unfold lowerAscii <;> split <;> omega

/-- For ASCII strings, folding is lower-casing. -/
theorem toLower_ascii {s : Str} (h : Ascii s) : toLower s = ((runes s).map foldRune).flatMap encodeRune := by
  unfold toLower
  rw [List.flatMap_map]
  rw [runes_ascii h, List.flatMap_map, List.flatMap_map]
  simp only [List.flatMap]
  congr 1
  apply List.map_congr_left
  intro b hb
  rw [foldRune_lower (show b.toNat < 0x80 from h b hb)]

theorem toLower_fold {s t : Str} (h : (runes s).map foldRune = (runes t).map foldRune) (hs : Ascii s) (ht : Ascii t) :
    toLower s = toLower t := by rw [toLower_ascii hs, toLower_ascii ht, h]

theorem toLower_append {b : UInt8} (hb : b < 0x80) (s t : Str) : toLower (s ++ b :: t) = toLower s ++ toLower (b :: t) := by
  have : runes (b :: t) = b.toNat :: runes t := by simpa using runes_append hb [] t
  unfold toLower
  rw [runes_append hb, this, List.flatMap_append]

/-- White space below U+0080. -/
theorem isSpace_byte {b : UInt8} (h : b < 0x80) : isSpace [b] = (b == 32 || (9 ≤ b && b ≤ 13)) := by
  have h8 : b.toNat < 0x80 := h
  unfold isSpace
  rw [runeOf_byte h]
  unfold isSpaceRune
  rw [Bool.eq_iff_iff]
  simp only [Bool.or_eq_true, Bool.and_eq_true, beq_iff_eq, decide_eq_true_eq, UInt8.le_iff_toNat_le, ← UInt8.toNat_inj]
  simp only [show (32 : UInt8).toNat = 32 from rfl, show (9 : UInt8).toNat = 9 from rfl, show (13 : UInt8).toNat = 13 from rfl]
  omega

/-- Nothing is trimmed from an ASCII string without white space. -/
theorem trimSpace_ascii {s : Str} (h : ∀ b ∈ s, b < 0x80 ∧ isSpace [b] = false) : trimSpace s = s := by
  have hc : chunks s = s.map fun b => [b] := chunks_ascii fun b hb => (h b hb).1
  have hall : ∀ c ∈ chunks s, isSpace c = false := by
    intro c hm
    rw [hc] at hm
    obtain ⟨b, hb, rfl⟩ := List.mem_map.1 hm
    exact (h b hb).2
  have hd : ∀ l : List Str, (∀ c ∈ l, isSpace c = false) → l.dropWhile isSpace = l := by
    intro l h
    cases l with
    | nil => rfl
    | cons a l => simp [h a (by simp)]
  unfold trimSpace
  rw [hd _ hall, hd _ (fun c hm => hall c (by simpa using hm)), List.reverse_reverse, flatten_chunks]

end Verif.Go
