import Verif.Proofs.Base62
import Verif.Proofs.Blank

/-! Verifiable identifiers (C46, C47). -/
namespace Verif.Props
open Verif.Verifiable Verif.Jose Verif.ClientAuth

/-- HMAC-SHA256 produces 32 bytes. -/
def Tag32 (C : Crypto) : Prop := ∀ k m, (C.hmac k m).length = 32

theorem padded_facts (s : Str) {k : Nat} (hk : 0 < k) :
    (∀ b ∈ toPaddedBase62 s k, alnum b = true) ∧ toPaddedBase62 s k ≠ [] ∧
    parseAux 0 (toPaddedBase62 s k) = some (bytesNat s) ∧
    (bytesNat s < 62 ^ k → (toPaddedBase62 s k).length = k) ∧
    (62 ^ k ≤ bytesNat s → bytesNat s < 62 ^ (k + 1) → (toPaddedBase62 s k).length = k + 1) := by
  obtain ⟨t1, t2, t3⟩ := text62_facts (bytesNat s)
  obtain ⟨p1, p2, p3, p4, p5⟩ := padLeft_facts (text62 (bytesNat s)) k
  refine ⟨p1 t1, p5 t3, by rw [toPaddedBase62, p2, t2], fun h => p3 (text62_length hk h), fun h1 h2 => ?_⟩
  have hle : (text62 (bytesNat s)).length ≤ k + 1 := text62_length (by omega) h2
  obtain ⟨v, q1, q2⟩ := parseAux_alnum _ t1 0
  rw [t2] at q1
  have hv : v = bytesNat s := by simpa using q1.symm
  have hlt : ¬ (text62 (bytesNat s)).length ≤ k := by
    intro hle
    have := Nat.pow_le_pow_right (n := 62) (by decide) hle
    omega
  rw [toPaddedBase62, p4 (by omega)]
  omega

/-- The identifier part has 22 characters, the nonce and tag 59 or 60. -/
theorem padded_lengths {u sg : Str} (hu : u.length = 16) (hs : sg.length = 44) :
    (toPaddedBase62 u 22).length = 22 ∧ ((toPaddedBase62 sg 59).length = 59 ∨ (toPaddedBase62 sg 59).length = 60) := by
  have h1 := (natBytes_bytesNat 16 u hu).2
  have h2 := (natBytes_bytesNat 44 sg hs).2
  obtain ⟨_, _, _, a, _⟩ := padded_facts _ (k := 22) (by decide)
  obtain ⟨_, _, _, b, c⟩ := padded_facts _ (k := 59) (by decide)
  refine ⟨a (Nat.lt_trans h1 (by decide)), ?_⟩
  by_cases h : bytesNat sg < 62 ^ 59
  · exact Or.inl (b h)
  · exact Or.inr (c (by omega) (Nat.lt_trans h2 (by decide)))

theorem parsePadded_of {b : Str} {n len : Nat} (hne : b ≠ []) (h : parseAux 0 b = some n) (hn : n < 256 ^ len) :
    parsePaddedBase62 b len = .ok (natBytes len n) := by
  simp [parsePaddedBase62, parse62, hne, h, fillBytes, hn]

/-- What may precede an identifier: nothing, or text without separator and a separator. -/
def IsPrefix (p : Str) : Prop := p = [] ∨ ∃ q, p = q ++ g!"_" ∧ (95 : UInt8) ∉ q

theorem alnum_noSep {a : Str} (ha : ∀ b ∈ a, alnum b = true) : (95 : UInt8) ∉ a :=
  fun h => not_underscore (ha _ h) rfl

theorem cut_none {sep : UInt8} {s : Str} (h : sep ∉ s) : cut sep s = (s, none) := by
  induction s with
  | nil => rfl
  | cons b r ih =>
    have hb : b ≠ sep := fun e => h (by simp [e])
    have hr : sep ∉ r := fun e => h (by simp [e])
    simp [cut, hb, ih hr]

theorem cut_none_eq {sep : UInt8} {s a : Str} (h : cut sep s = (a, none)) : a = s := by
  induction s generalizing a with
  | nil => simpa [cut] using h.symm
  | cons b r ih =>
    by_cases hb : b = sep
    · simp [cut, hb] at h
    · simp only [cut, hb, if_false, Prod.mk.injEq] at h
      rw [← h.1, ih (a := (cut sep r).1) (by rw [← h.2])]

theorem format_iff (a b : Str) (ha : (95 : UInt8) ∉ a) :
    formatOk (a ++ 95 :: b) = true ↔
      a.length = 22 ∧ (b.length = 59 ∨ b.length = 60) ∧ (∀ x ∈ a, alnum x = true) ∧ ∀ x ∈ b, alnum x = true := by
  constructor
  · intro h
    simp only [formatOk, Bool.and_eq_true, Bool.or_eq_true, beq_iff_eq] at h
    obtain ⟨⟨⟨h1, h2⟩, h3⟩, h4⟩ := h
    have hlen : a.length = 22 := by
      rcases Nat.lt_trichotomy a.length 22 with hl | hl | hl
      · have : (95 : UInt8) ∈ (a ++ 95 :: b).take 22 := by
          rw [List.take_append]
          apply List.mem_append_right
          obtain ⟨k, hk⟩ : ∃ k, 22 - a.length = k + 1 := ⟨21 - a.length, by omega⟩
          rw [hk]
          simp
        exact absurd (List.all_eq_true.1 h2 _ this) (by decide)
      · exact hl
      · rw [List.getElem?_append_left hl, List.getElem?_eq_getElem hl] at h3
        exact absurd (by rw [← Option.some.inj h3]; exact List.getElem_mem _) ha
    have ht : (a ++ 95 :: b).take 22 = a := by rw [List.take_append_of_le_length (by omega), List.take_of_length_le (by omega)]
    have hd : (a ++ 95 :: b).drop 23 = b := by
      rw [List.drop_append, List.drop_eq_nil_of_le (by omega), hlen]
      rfl
    rw [ht] at h2
    rw [hd] at h4
    simp only [List.length_append, List.length_cons] at h1
    exact ⟨hlen, by omega, List.all_eq_true.1 h2, List.all_eq_true.1 h4⟩
  · rintro ⟨hlen, hb, h2, h4⟩
    have ht : (a ++ 95 :: b).take 22 = a := by rw [List.take_append_of_le_length (by omega), List.take_of_length_le (by omega)]
    have hd : (a ++ 95 :: b).drop 23 = b := by
      rw [List.drop_append, List.drop_eq_nil_of_le (by omega), hlen]
      rfl
    have h3 : (a ++ 95 :: b)[22]? = some 95 := by
      rw [List.getElem?_append_right (by omega), hlen]
      rfl
    simp only [formatOk, Bool.and_eq_true, Bool.or_eq_true, beq_iff_eq, ht, hd, h3, List.length_append, List.length_cons]
    exact ⟨⟨⟨by omega, List.all_eq_true.2 h2⟩, trivial⟩, List.all_eq_true.2 h4⟩

/-- How a text of the right format is read. -/
theorem extract_format (C : Crypto) (secret p a b : Str) (hp : IsPrefix p) (ha : (95 : UInt8) ∉ a) (hb : (95 : UInt8) ∉ b) :
    extract C secret (p ++ (a ++ 95 :: b)) =
      if ¬ formatOk (a ++ 95 :: b) then .err else check C secret p a b := by
  have hc : cut 95 (a ++ 95 :: b) = (a, some b) := cut_append ha
  rcases hp with rfl | ⟨q, rfl, hq⟩
  · simp only [extract, List.nil_append, hc, cut_none hb]
  · have h1 : cut 95 (q ++ g!"_" ++ (a ++ 95 :: b)) = (q, some (a ++ 95 :: b)) := by
      rw [List.append_assoc]
      exact cut_append hq
    have h2 : a ++ g!"_" ++ b = a ++ 95 :: b := by rw [List.append_assoc]; rfl
    simp only [extract, h1, hc, h2]

/-- Everything but texts of the right format is refused. -/
theorem extract_cases (C : Crypto) (secret s : Str) : extract C secret s = .err ∨
    ∃ p a b, s = p ++ (a ++ 95 :: b) ∧ IsPrefix p ∧ a.length = 22 ∧ (b.length = 59 ∨ b.length = 60) ∧
      (∀ x ∈ a, alnum x = true) ∧ ∀ x ∈ b, alnum x = true := by
  have split2 : ∀ t : Str, formatOk t = true → ∀ a b, cut 95 t = (a, some b) →
      a.length = 22 ∧ (b.length = 59 ∨ b.length = 60) ∧ (∀ x ∈ a, alnum x = true) ∧ ∀ x ∈ b, alnum x = true := by
    intro t ht a b hc
    obtain ⟨rfl, ha⟩ := cut_some hc
    exact (format_iff a b ha).1 ht
  rcases h1 : cut 95 s with ⟨p, _ | r⟩
  · left
    simp only [extract, h1]
    split <;> rfl
  · obtain ⟨e1, hp⟩ := cut_some h1
    rcases h2 : cut 95 r with ⟨a, _ | b⟩
    · by_cases hf : formatOk s = true
      · obtain ⟨f1, f2, f3, f4⟩ := split2 s hf p r h1
        exact Or.inr ⟨[], p, r, by simpa using e1, Or.inl rfl, f1, f2, f3, f4⟩
      · left
        simp only [extract, h1, h2]
        simp [hf]
    · obtain ⟨e2, ha⟩ := cut_some h2
      have e3 : a ++ g!"_" ++ b = a ++ 95 :: b := by rw [List.append_assoc]; rfl
      by_cases hf : formatOk (a ++ 95 :: b) = true
      · obtain ⟨f1, f2, f3, f4⟩ := (format_iff a b ha).1 hf
        refine Or.inr ⟨p ++ g!"_", a, b, ?_, Or.inr ⟨p, rfl, hp⟩, f1, f2, f3, f4⟩
        rw [e1, e2, List.append_assoc]
        rfl
      · left
        simp only [extract, h1, h2, e3]
        simp [hf]

/-- **C46.** What the generator produces for an identifier is extracted as that identifier,
whatever the nonce, the prefix and the secret. -/
theorem C46_roundtrip (C : Crypto) (h32 : Tag32 C) (secret : Str) (opts : List Str) (uuid nonce out : Str)
    (hu : uuid.length = 16) (hn : nonce.length = 12) (h : generate C secret opts (some uuid) (some nonce) = some out) :
    extract C secret out = .ok uuid := by
  obtain ⟨p, hp, hout⟩ : ∃ p, IsPrefix p ∧
      out = p ++ (toPaddedBase62 uuid 22 ++ 95 :: toPaddedBase62 (nonce ++ tag C secret nonce p uuid) 59) := by
    simp only [generate] at h
    generalize opts.foldl (fun _ v => tokenPrefix v) [] = opt at h
    split at h
    · cases h
    · rename_i hc
      by_cases ho : opt = []
      · simp only [ho, ne_eq, not_true, if_false, Option.some.injEq, List.nil_append, List.append_assoc] at h
        exact ⟨[], Or.inl rfl, h.symm⟩
      · simp only [ne_eq, ho, not_false_iff, if_true, Option.some.injEq, List.append_assoc] at h
        refine ⟨opt ++ g!"_", Or.inr ⟨opt, rfl, ?_⟩, by rw [← h, List.append_assoc]; rfl⟩
        intro hm
        have : opt.all prefixChar = true := by
          simpa [ho] using hc
        exact absurd (List.all_eq_true.1 this _ hm) (by decide)
  have hs : (nonce ++ tag C secret nonce p uuid).length = 44 := by
    rw [List.length_append, hn, tag, h32]
  obtain ⟨l1, l2⟩ := padded_lengths hu hs
  obtain ⟨u1, u2, u3, _⟩ := padded_facts _ (k := 22) (by decide)
  obtain ⟨s1, s2, s3, _⟩ := padded_facts _ (k := 59) (by decide)
  obtain ⟨b1, b2⟩ := natBytes_bytesNat 16 uuid hu
  obtain ⟨c1, c2⟩ := natBytes_bytesNat 44 _ hs
  rw [hout, extract_format C secret p _ _ hp (alnum_noSep u1) (alnum_noSep s1),
    if_neg (by rw [(format_iff _ _ (alnum_noSep u1)).2 ⟨l1, l2, u1, s1⟩]; simp), check,
    parsePadded_of u2 u3 b2, parsePadded_of s2 s3 c2, b1, c1]
  dsimp only
  rw [if_pos]
  rw [List.drop_left' hn, List.take_left' hn]

/-- A toy HKDF and HMAC. -/
def demoCrypto : Crypto where
  hkdf secret salt _ := secret ++ salt
  hmac k m := ((m.drop 29).take 20 ++ k ++ List.replicate 32 0).take 32

theorem demoCrypto_tag : Tag32 demoCrypto := by
  intro k m
  simp only [demoCrypto, List.length_take, List.length_append, List.length_replicate]
  omega

example : ∃ out, Tag32 demoCrypto ∧ g!"0123456789abcdef".length = 16 ∧ g!"nonce-nonce-".length = 12 ∧
    generate demoCrypto g!"key" [g!" At "] (some g!"0123456789abcdef") (some g!"nonce-nonce-") = some out := by
  have h : generate demoCrypto g!"key" [g!" At "] (some g!"0123456789abcdef") (some g!"nonce-nonce-") ≠ none := by
    simp only [generate]
    rw [if_neg (by decide)]
    simp
  obtain ⟨out, ho⟩ := Option.ne_none_iff_exists'.1 h
  exact ⟨out, demoCrypto_tag, by decide, by decide, ho⟩

/-- **C46** (form). With a prefix the generator answers exactly if the trimmed prefix in lower
case consists of small letters, digits and hyphens, and then with the prefix and an underscore
(nothing for the empty prefix), the identifier, and the nonce with the tag. -/
theorem C46_form (C : Crypto) (secret v uuid nonce out : Str) :
    generate C secret [v] (some uuid) (some nonce) = some out ↔
      (∀ b ∈ Go.trimSpace (Go.toLower v), b ∈ g!"abcdefghijklmnopqrstuvwxyz0123456789-") ∧
      ∃ p, (Go.trimSpace (Go.toLower v) = [] → p = []) ∧
        (Go.trimSpace (Go.toLower v) ≠ [] → p = Go.trimSpace (Go.toLower v) ++ g!"_") ∧
        out = p ++ toPaddedBase62 uuid 22 ++ g!"_" ++ toPaddedBase62 (nonce ++
          C.hmac (C.hkdf secret nonce g!"solid-uuid-wrapper-mac-v1") (g!"solid-uuid-protected-token-v1" ++ p ++ uuid)) 59 := by
  have hc : ∀ b : UInt8, prefixChar b = true ↔ b ∈ g!"abcdefghijklmnopqrstuvwxyz0123456789-" := by
    apply Go.bytes_all
    decide +kernel
  have ha : ∀ w : Str, w.all prefixChar = true ↔ ∀ b ∈ w, b ∈ g!"abcdefghijklmnopqrstuvwxyz0123456789-" := by
    intro w
    rw [List.all_eq_true]
    exact forall_congr' fun b => imp_congr Iff.rfl (hc b)
  obtain ⟨w, hw⟩ : ∃ w, w = Go.trimSpace (Go.toLower v) := ⟨_, rfl⟩
  have hg : generate C secret [v] (some uuid) (some nonce) = if w ≠ [] ∧ ¬ w.all prefixChar then none
      else
        let pfx := if w ≠ [] then w ++ g!"_" else []
        some (pfx ++ toPaddedBase62 uuid 22 ++ g!"_" ++ toPaddedBase62 (nonce ++ tag C secret nonce pfx uuid) 59) := by
    subst hw
    rfl
  rw [hg, ← hw, ← ha]
  by_cases hw : w = []
  · subst hw
    simp [tag, eq_comm]
  · by_cases hp : w.all prefixChar = true
    · rw [if_neg (fun h => h.2 hp)]
      simp [hw, hp, tag, eq_comm]
    · rw [if_pos ⟨hw, hp⟩]
      simp [hp]

example : (∀ b ∈ Go.trimSpace (Go.toLower g!" Sld-1 "), b ∈ g!"abcdefghijklmnopqrstuvwxyz0123456789-") ∧
    Go.trimSpace (Go.toLower g!" Sld-1 ") = g!"sld-1" ∧
    ¬ ∀ b ∈ Go.trimSpace (Go.toLower g!"a.b"), b ∈ g!"abcdefghijklmnopqrstuvwxyz0123456789-" := by decide +kernel

/-- **C47** (acceptance). A text is accepted with an identifier exactly when it is a prefix
without further separators, the 22 digits of the 16-byte identifier, and the digits of a
12-byte nonce followed by the keyed tag of prefix, identifier and nonce; where these take 59
digits, one more leading zero is tolerated. -/
theorem C47_accepted_iff (C : Crypto) (h32 : Tag32 C) (secret s u : Str) :
    extract C secret s = .ok u ↔ u.length = 16 ∧ ∃ p nonce, IsPrefix p ∧ nonce.length = 12 ∧
      let sg := nonce ++ C.hmac (C.hkdf secret nonce g!"solid-uuid-wrapper-mac-v1")
        (g!"solid-uuid-protected-token-v1" ++ p ++ u)
      (s = p ++ (toPaddedBase62 u 22 ++ 95 :: toPaddedBase62 sg 59) ∨
       ((toPaddedBase62 sg 59).length = 59 ∧ s = p ++ (toPaddedBase62 u 22 ++ 95 :: 48 :: toPaddedBase62 sg 59))) := by
  constructor
  · intro h
    rcases extract_cases C secret s with he | ⟨p, a, b, rfl, hp, ha, hb, ha', hb'⟩
    · rw [he] at h; cases h
    rw [extract_format C secret p a b hp (alnum_noSep ha') (alnum_noSep hb'),
      if_neg (by rw [(format_iff a b (alnum_noSep ha')).2 ⟨ha, hb, ha', hb'⟩]; simp), check] at h
    have hane : a ≠ [] := by intro e; rw [e] at ha; cases ha
    have hbne : b ≠ [] := by intro e; rw [e] at hb; simp at hb
    obtain ⟨va, a1, a2, a3⟩ := parse62_alnum hane ha'
    obtain ⟨vb, b1, b2, b3⟩ := parse62_alnum hbne hb'
    by_cases hva : va < 256 ^ 16
    rotate_left
    · simp [parsePaddedBase62, a1, fillBytes, hva] at h
    rw [parsePadded_of hane a2 hva] at h
    by_cases hvb : vb < 256 ^ 44
    rotate_left
    · simp [parsePaddedBase62, b1, fillBytes, hvb] at h
    rw [parsePadded_of hbne b2 hvb] at h
    dsimp only at h
    split at h
    rotate_left
    · cases h
    rename_i htag
    obtain rfl : natBytes 16 va = u := by injection h
    have hl16 := natBytes_length 16 va
    have hl44 := natBytes_length 44 vb
    have hl12 : ((natBytes 44 vb).take 12).length = 12 := by rw [List.length_take, hl44]; rfl
    refine ⟨hl16, p, (natBytes 44 vb).take 12, hp, hl12, ?_⟩
    have hsg : (natBytes 44 vb).take 12 ++ C.hmac (C.hkdf secret ((natBytes 44 vb).take 12) g!"solid-uuid-wrapper-mac-v1")
        (g!"solid-uuid-protected-token-v1" ++ p ++ natBytes 16 va) = natBytes 44 vb := by
      rw [tag] at htag
      rw [← htag, List.take_append_drop]
    dsimp only
    rw [hsg]
    obtain ⟨l1, l2⟩ := padded_lengths hl16 hl44
    obtain ⟨u1, u2, u3, _⟩ := padded_facts _ (k := 22) (by decide)
    obtain ⟨s1, s2, s3, s4, s5⟩ := padded_facts _ (k := 59) (by decide)
    rw [bytesNat_natBytes hva] at u3
    rw [bytesNat_natBytes hvb] at s3 s4 s5
    have ea : a = toPaddedBase62 (natBytes 16 va) 22 := parseAux_inj ha' u1 (by rw [ha, l1]) (by rw [a2, u3])
    rw [← ea]
    by_cases hlen : b.length = (toPaddedBase62 (natBytes 44 vb) 59).length
    · left
      rw [← parseAux_inj hb' s1 hlen (by rw [b2, s3])]
    · right
      have h59 : (toPaddedBase62 (natBytes 44 vb) 59).length = 59 := by
        rcases hb with hb | hb
        · exact s4 (by rw [← hb]; exact b3)
        · omega
      refine ⟨h59, ?_⟩
      have : b = 48 :: toPaddedBase62 (natBytes 44 vb) 59 := by
        refine parseAux_inj hb' ?_ ?_ ?_
        · intro x hx
          rcases List.mem_cons.1 hx with rfl | hx
          · decide
          · exact s1 x hx
        · rw [List.length_cons]; omega
        · rw [b2]
          exact s3.symm.trans (parseAux_zeros 1 _).symm
      rw [← this]
  · rintro ⟨hu, p, nonce, hp, hn, hs⟩
    dsimp only at hs
    generalize htag : C.hmac (C.hkdf secret nonce g!"solid-uuid-wrapper-mac-v1") (g!"solid-uuid-protected-token-v1" ++ p ++ u) = tg at hs
    have htl : tg.length = 32 := by rw [← htag]; exact h32 _ _
    have hsl : (nonce ++ tg).length = 44 := by rw [List.length_append, hn, htl]
    obtain ⟨l1, l2⟩ := padded_lengths hu hsl
    obtain ⟨u1, u2, u3, _⟩ := padded_facts _ (k := 22) (by decide)
    obtain ⟨s1, s2, s3, _⟩ := padded_facts _ (k := 59) (by decide)
    obtain ⟨b1, b2⟩ := natBytes_bytesNat 16 u hu
    obtain ⟨c1, c2⟩ := natBytes_bytesNat 44 _ hsl
    obtain ⟨b, hb, hbl, hb', hbv⟩ : ∃ b, s = p ++ (toPaddedBase62 u 22 ++ 95 :: b) ∧ (b.length = 59 ∨ b.length = 60) ∧
        (∀ x ∈ b, alnum x = true) ∧ parseAux 0 b = some (bytesNat (nonce ++ tg)) := by
      rcases hs with hs | ⟨h59, hs⟩
      · exact ⟨_, hs, l2, s1, s3⟩
      · refine ⟨_, hs, Or.inr (by rw [List.length_cons, h59]), ?_, ?_⟩
        · intro x hx
          rcases List.mem_cons.1 hx with rfl | hx
          · decide
          · exact s1 x hx
        · exact (parseAux_zeros 1 _).trans s3
    have hbne : b ≠ [] := by intro e; rw [e] at hbl; simp at hbl
    rw [hb, extract_format C secret p _ _ hp (alnum_noSep u1) (alnum_noSep hb'),
      if_neg (by rw [(format_iff _ _ (alnum_noSep u1)).2 ⟨l1, hbl, u1, hb'⟩]; simp), check,
      parsePadded_of u2 u3 b2, parsePadded_of hbne hbv c2, b1, c1]
    dsimp only
    rw [if_pos]
    rw [List.drop_left' hn, List.take_left' hn, tag, htag]

/-- **C47** (separation). The text that is tagged determines prefix and identifier, so that a
tag made for one token type or identifier is accepted for another only by a collision. -/
theorem C47_protected_injective (p p' u u' : Str) (hu : u.length = 16) (hu' : u'.length = 16)
    (h : g!"solid-uuid-protected-token-v1" ++ p ++ u = g!"solid-uuid-protected-token-v1" ++ p' ++ u') : p = p' ∧ u = u' := by
  rw [List.append_assoc, List.append_assoc] at h
  exact List.append_inj' (List.append_cancel_left h) (by rw [hu, hu'])

/-- **C47** (type confusion). If the same digits are accepted behind two different prefixes,
say those of two token types, the tag function has a collision under one key. -/
theorem C47_type_confusion (C : Crypto) (h32 : Tag32 C) (secret p p' a b u u' : Str) (hp : IsPrefix p) (hp' : IsPrefix p')
    (ha : (95 : UInt8) ∉ a) (hb : (95 : UInt8) ∉ b) (hne : p ≠ p')
    (h : extract C secret (p ++ (a ++ 95 :: b)) = .ok u) (h' : extract C secret (p' ++ (a ++ 95 :: b)) = .ok u') :
    ∃ k m m', m ≠ m' ∧ C.hmac k m = C.hmac k m' := by
  have hu := ((C47_accepted_iff C h32 secret _ u).1 h).1
  have hu' := ((C47_accepted_iff C h32 secret _ u').1 h').1
  rw [extract_format C secret p a b hp ha hb] at h
  rw [extract_format C secret p' a b hp' ha hb] at h'
  split at h
  · cases h
  rename_i hf
  rw [if_neg hf] at h'
  unfold check at h h'
  cases h1 : parsePaddedBase62 a 16 with
  | err => rw [h1] at h; cases h
  | panic => rw [h1] at h; cases h
  | ok x =>
    cases h2 : parsePaddedBase62 b 44 with
    | err => rw [h1, h2] at h; cases h
    | panic => rw [h1, h2] at h; cases h
    | ok sg =>
      rw [h1, h2] at h h'
      dsimp only at h h'
      split at h
      rotate_left
      · cases h
      split at h'
      rotate_left
      · cases h'
      rename_i t1 t2
      obtain rfl : x = u := by injection h
      refine ⟨_, _, _, ?_, t1.symm.trans t2⟩
      intro he
      exact hne (C47_protected_injective p p' x x hu hu he).1

/-- With a tag function that ignores its message, the digits move between prefixes. -/
example : ∃ (C : Crypto) (secret p p' a b u u' : Str), Tag32 C ∧ IsPrefix p ∧ IsPrefix p' ∧ (95 : UInt8) ∉ a ∧ (95 : UInt8) ∉ b ∧
    p ≠ p' ∧ extract C secret (p ++ (a ++ 95 :: b)) = .ok u ∧ extract C secret (p' ++ (a ++ 95 :: b)) = .ok u' := by
  let C : Crypto := ⟨fun _ _ _ => [], fun _ _ => List.replicate 32 1⟩
  have h32 : Tag32 C := fun _ _ => List.length_replicate
  have hu : g!"0123456789abcdef".length = 16 := rfl
  have hn : g!"nonce-nonce-".length = 12 := rfl
  generalize g!"0123456789abcdef" = u at hu
  generalize g!"nonce-nonce-" = n at hn
  obtain ⟨a1, _⟩ := padded_facts u (k := 22) (by decide)
  obtain ⟨b1, _⟩ := padded_facts (n ++ List.replicate 32 1) (k := 59) (by decide)
  refine ⟨C, [], g!"sldat_", g!"sldrt_", toPaddedBase62 u 22, toPaddedBase62 (n ++ List.replicate 32 1) 59, u, u, h32,
    Or.inr ⟨g!"sldat", rfl, by decide⟩, Or.inr ⟨g!"sldrt", rfl, by decide⟩, alnum_noSep a1, alnum_noSep b1, by decide, ?_, ?_⟩
  · exact (C47_accepted_iff C h32 _ _ _).2 ⟨hu, _, n, Or.inr ⟨g!"sldat", rfl, by decide⟩, hn, Or.inl rfl⟩
  · exact (C47_accepted_iff C h32 _ _ _).2 ⟨hu, _, n, Or.inr ⟨g!"sldrt", rfl, by decide⟩, hn, Or.inl rfl⟩

/-- **C47** (crash freedom, what holds). Extraction crashes exactly on texts of the right
format whose digits exceed 16 or 44 bytes. -/
theorem C47_crash_iff (C : Crypto) (secret s : Str) : extract C secret s = .panic ↔
    ∃ p a b va vb, s = p ++ (a ++ 95 :: b) ∧ IsPrefix p ∧ a.length = 22 ∧ (b.length = 59 ∨ b.length = 60) ∧
      (∀ x ∈ a, alnum x = true) ∧ (∀ x ∈ b, alnum x = true) ∧ parse62 a = some va ∧ parse62 b = some vb ∧
      (2 ^ 128 ≤ va ∨ 2 ^ 352 ≤ vb) := by
  have e16 : (256 : Nat) ^ 16 = 2 ^ 128 := by decide
  have e44 : (256 : Nat) ^ 44 = 2 ^ 352 := Nat.pow_mul 2 8 44 |>.symm
  have key : ∀ p a b va vb, IsPrefix p → a.length = 22 → (b.length = 59 ∨ b.length = 60) →
      (∀ x ∈ a, alnum x = true) → (∀ x ∈ b, alnum x = true) → parse62 a = some va → parse62 b = some vb →
      (extract C secret (p ++ (a ++ 95 :: b)) = .panic ↔ (2 ^ 128 ≤ va ∨ 2 ^ 352 ≤ vb)) := by
    intro p a b va vb hp ha hb ha' hb' h1 h2
    rw [extract_format C secret p a b hp (alnum_noSep ha') (alnum_noSep hb'),
      if_neg (by rw [(format_iff a b (alnum_noSep ha')).2 ⟨ha, hb, ha', hb'⟩]; simp)]
    simp only [check, parsePaddedBase62, h1, h2, fillBytes, e16, e44]
    generalize (2 : Nat) ^ 128 = m
    generalize (2 : Nat) ^ 352 = m'
    by_cases c1 : va < m
    · by_cases c2 : vb < m'
      · simp only [c1, c2, if_true]
        constructor
        · intro h; split at h <;> cases h
        · intro h; omega
      · simp only [c1, c2, if_true, if_false, true_iff]
        omega
    · simp only [c1, if_false, true_iff]
      omega
  constructor
  · intro h
    rcases extract_cases C secret s with he | ⟨p, a, b, rfl, hp, ha, hb, ha', hb'⟩
    · rw [he] at h; cases h
    have hane : a ≠ [] := by intro e; rw [e] at ha; cases ha
    have hbne : b ≠ [] := by intro e; rw [e] at hb; simp at hb
    obtain ⟨va, a1, _⟩ := parse62_alnum hane ha'
    obtain ⟨vb, b1, _⟩ := parse62_alnum hbne hb'
    exact ⟨p, a, b, va, vb, rfl, hp, ha, hb, ha', hb', a1, b1, (key p a b va vb hp ha hb ha' hb' a1 b1).1 h⟩
  · rintro ⟨p, a, b, va, vb, rfl, hp, ha, hb, ha', hb', a1, b1, h⟩
    exact (key p a b va vb hp ha hb ha' hb' a1 b1).2 h

/-- **C47_violated** (crash). Anybody can crash the extraction, without knowing the secret. -/
theorem C47_violated_crash (C : Crypto) (secret : Str) :
    extract C secret (List.replicate 22 90 ++ 95 :: List.replicate 59 48) = .panic := by
  have hz : ∀ k (b : UInt8), alnum b = true → ∀ x ∈ List.replicate k b, alnum x = true := by
    intro k b hb x hx
    rw [(List.mem_replicate.1 hx).2]; exact hb
  exact (C47_crash_iff C secret _).2 ⟨[], List.replicate 22 90, List.replicate 59 48, 62 ^ 22 - 1, 0, rfl, Or.inl rfl,
    by simp, by simp, hz _ _ (by decide), hz _ _ (by decide), by decide +kernel, by decide +kernel, Or.inl (by decide)⟩

/-- **C47_violated** (one text per token). Wherever the nonce and tag take 59 digits, a second
text than the generated one is accepted for the same identifier. -/
theorem C47_violated_malleable : ∃ (C : Crypto) (secret uuid nonce out out' : Str), Tag32 C ∧
    uuid.length = 16 ∧ nonce.length = 12 ∧ generate C secret [] (some uuid) (some nonce) = some out ∧ out' ≠ out ∧
    extract C secret out = .ok uuid ∧ extract C secret out' = .ok uuid := by
  have hlt : bytesNat (List.replicate 12 0 ++ tag demoCrypto g!"key" (List.replicate 12 0) [] g!"0123456789abcdef") < 62 ^ 59 := by
    decide +kernel
  have hu : g!"0123456789abcdef".length = 16 := rfl
  have hn : (List.replicate 12 (0 : UInt8)).length = 12 := rfl
  generalize g!"0123456789abcdef" = uuid at hlt hu
  generalize List.replicate 12 (0 : UInt8) = nonce at hlt hn
  obtain ⟨out, h1, h2⟩ : ∃ out, generate demoCrypto g!"key" [] (some uuid) (some nonce) = some out ∧
      out = toPaddedBase62 uuid 22 ++ 95 :: toPaddedBase62 (nonce ++ tag demoCrypto g!"key" nonce [] uuid) 59 :=
    ⟨_, by simp [generate], rfl⟩
  have hs : (nonce ++ tag demoCrypto g!"key" nonce [] uuid).length = 44 := by
    rw [List.length_append, hn, tag, demoCrypto_tag]
  have h59 := (padded_facts _ (k := 59) (by decide)).2.2.2.1 hlt
  refine ⟨demoCrypto, g!"key", uuid, nonce, out,
    toPaddedBase62 uuid 22 ++ 95 :: 48 :: toPaddedBase62 (nonce ++ tag demoCrypto g!"key" nonce [] uuid) 59,
    demoCrypto_tag, hu, hn, h1, ?_, C46_roundtrip _ demoCrypto_tag _ _ _ _ _ hu hn h1, ?_⟩
  · intro he
    have := congrArg List.length (he.trans h2)
    simp only [List.length_append, List.length_cons] at this
    omega
  · exact (C47_accepted_iff demoCrypto demoCrypto_tag g!"key" _ _).2 ⟨hu, [], nonce, Or.inl rfl, hn, Or.inr ⟨h59, rfl⟩⟩

/-- **C46** (tokens). A token value is generated for every token type, and extracted as its
identifier. -/
theorem C46_token_types (C : Crypto) (h32 : Tag32 C) (secret uuid nonce : Str) (ty : TokenType)
    (hu : uuid.length = 16) (hn : nonce.length = 12) :
    ∃ out, tokenGenerate C secret (some uuid) (some nonce) (some ty) = some out ∧ extract C secret out = .ok uuid := by
  have h : tokenGenerate C secret (some uuid) (some nonce) (some ty) ≠ none := by
    have hok : ∀ ty, ¬ ((typePrefix ty).foldl (fun _ v => tokenPrefix v) [] ≠ [] ∧
        ¬ ((typePrefix ty).foldl (fun _ v => tokenPrefix v) []).all prefixChar = true) := by
      intro ty; cases ty <;> decide
    simp only [tokenGenerate, generate]
    split
    · rename_i hc; exact absurd hc (hok ty)
    · simp
  obtain ⟨out, ho⟩ := Option.ne_none_iff_exists'.1 h
  exact ⟨out, ho, C46_roundtrip C h32 secret _ uuid nonce out hu hn ho⟩

/-- How the values of a token type begin. -/
def markOf : TokenType → Str
  | .accessToken => g!"sldat_"
  | .refreshToken => g!"sldrt_"
  | .phantomToken => g!"sldpt_"
  | _ => []

/-- **C46** (marks). The value of an access, refresh or phantom token begins with the mark of
its type, so two values of different such types differ, whatever the secrets and random
bytes. -/
theorem C46_token_marks (C C' : Crypto) (secret secret' uuid uuid' nonce nonce' out out' : Str) (ty ty' : TokenType)
    (h : tokenGenerate C secret (some uuid) (some nonce) (some ty) = some out)
    (h' : tokenGenerate C' secret' (some uuid') (some nonce') (some ty') = some out') :
    markOf ty <+: out ∧ (markOf ty ≠ [] → markOf ty' ≠ [] → ty ≠ ty' → out ≠ out') := by
  have key : ∀ {C : Crypto} {secret uuid nonce out : Str} {ty : TokenType},
      tokenGenerate C secret (some uuid) (some nonce) (some ty) = some out → markOf ty <+: out := by
    intro C secret uuid nonce out ty h
    simp only [tokenGenerate, generate] at h
    split at h
    · cases h
    · cases h
      have : markOf ty = if (typePrefix ty).foldl (fun _ v => tokenPrefix v) [] ≠ [] then
          (typePrefix ty).foldl (fun _ v => tokenPrefix v) [] ++ g!"_" else [] := by cases ty <;> decide
      rw [← this, List.append_assoc, List.append_assoc]
      exact List.prefix_append _ _
  refine ⟨key h, fun h1 h2 hne he => ?_⟩
  have k1 := key h
  have k2 := key h'
  rw [he] at k1
  have hlen : ∀ ty, markOf ty ≠ [] → (markOf ty).length = 6 := by intro ty; cases ty <;> decide
  have := List.prefix_of_prefix_length_le k1 k2 (by rw [hlen _ h1, hlen _ h2]; exact Nat.le_refl _)
  have := this.eq_of_length (by rw [hlen _ h1, hlen _ h2])
  revert this h1 hne
  cases ty <;> cases ty' <;> decide

example : (markOf .accessToken ≠ [] ∧ markOf .refreshToken ≠ [] ∧ TokenType.accessToken ≠ .refreshToken) ∧
    (tokenGenerate demoCrypto g!"key" (some g!"0123456789abcdef") (some (List.replicate 12 0)) (some .accessToken)).isSome = true := by
  decide +kernel

end Verif.Props
