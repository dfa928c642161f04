import Verif.Model.Raw
import Verif.Spec.Form
import Verif.Proofs.UrlQuery
import Verif.Proofs.Lib

/-! Forms and credentials as texts. -/
namespace Verif.Raw
open Verif.Spec Verif.Url

/-! ### Forms -/

theorem formByte_free {t : Str} {b : UInt8} (h : FormByte t b) : (38 : UInt8) ∉ t ∧ (59 : UInt8) ∉ t ∧ (61 : UInt8) ∉ t := by
  cases h with
  | plain b hb =>
    simp only [List.mem_singleton]
    refine ⟨?_, ?_, ?_⟩ <;> (rintro rfl; exact hb (by decide))
  | space => decide
  | hex a b x y ha hb =>
    have k : ∀ c : UInt8, (hexDigit c).isSome = true → c ≠ 38 ∧ c ≠ 59 ∧ c ≠ 61 := by
      apply bytes
      decide +kernel
    obtain ⟨a1, a2, a3⟩ := k a (by rw [ha]; rfl)
    obtain ⟨b1, b2, b3⟩ := k b (by rw [hb]; rfl)
    simp [Ne.symm a1, Ne.symm a2, Ne.symm a3, Ne.symm b1, Ne.symm b2, Ne.symm b3]

theorem formText_free {t s : Str} (h : FormText t s) : (38 : UInt8) ∉ t ∧ (59 : UInt8) ∉ t ∧ (61 : UInt8) ∉ t := by
  induction h with
  | nil => simp
  | cons hb _ ih =>
    obtain ⟨h1, h2, h3⟩ := formByte_free hb
    simp [h1, h2, h3, ih]

theorem unescape_formByte {t : Str} {b : UInt8} (h : FormByte t b) (u : Str) :
    unescape .queryComponent (t ++ u) = (unescape .queryComponent u).map (b :: ·) := by
  cases h with
  | plain b hb =>
    have h1 : b ≠ 37 := by rintro rfl; exact hb (by decide)
    have h2 : b ≠ 43 := by rintro rfl; exact hb (by decide)
    rw [List.singleton_append, unescape_byte _ _ _ h1 h2, if_neg (by simp [badByte])]
  | space => exact unescape_plus _ u
  | hex a b x y ha hb =>
    have k : ∀ c : UInt8, (hexDigit c).isSome = true → ishex c = true := by
      apply bytes
      decide +kernel
    have ka := k a (by rw [ha]; rfl)
    have kb := k b (by rw [hb]; rfl)
    have e1 := (hexDigit_unhex a ka).1
    have e2 := (hexDigit_unhex b kb).1
    rw [ha] at e1
    rw [hb] at e2
    cases e1
    cases e2
    show unescape .queryComponent (37 :: a :: b :: u) = _
    rw [unescape_hex, if_neg (by simp [ka, kb, badEscape]), hex_byte a b ka kb]

theorem unescape_formText {t s : Str} (h : FormText t s) : unescape .queryComponent t = some s := by
  induction h with
  | nil => rfl
  | cons hb _ ih => rw [unescape_formByte hb, ih]; rfl

theorem parsePair_form {t : Str} {x : Str × Str} (h : FormPair t x) : parsePair t = some x ∧ (38 : UInt8) ∉ t := by
  obtain ⟨k, v, rfl, hk, hv⟩ := h
  obtain ⟨k1, k2, k3⟩ := formText_free hk
  obtain ⟨v1, v2, v3⟩ := formText_free hv
  refine ⟨?_, by simp [k1, v1]⟩
  rw [parsePair, if_neg (by simp [k2, v2]), if_neg (by simp), cut_append k3]
  simp only [unescape_formText hk, unescape_formText hv]

/-- Whatever wrote a form, `url.ParseQuery` reads it. -/
theorem parseQuery_form {t : Str} {l : List (Str × Str)} (h : Form t l) : parseQuery t = l := by
  induction h with
  | nil => rfl
  | one h =>
    obtain ⟨h1, h2⟩ := parsePair_form h
    rw [parseQuery, splitOn_none h2, List.filterMap_cons, h1]
    rfl
  | cons h _ ih =>
    obtain ⟨h1, h2⟩ := parsePair_form h
    rw [parseQuery, splitOn_append _ h2, List.filterMap_cons, h1]
    rw [parseQuery] at ih
    rw [ih]

/-- `url.QueryEscape` writes texts that stand for their argument. -/
theorem formText_escape (s : Str) : FormText (escape .queryComponent s) s := by
  induction s with
  | nil => exact .nil
  | cons c s ih =>
    have e : escape .queryComponent (c :: s) = escapeByte .queryComponent c ++ escape .queryComponent s := by
      simp [escape]
    rw [e]
    refine .cons ?_ ih
    rw [escapeByte]
    split
    · rename_i h
      rw [h.1]
      exact .space
    · split
      · have k : ∀ c : UInt8, hexDigit (upperhex (c / 16)) = some (c.toNat / 16) ∧ hexDigit (upperhex (c % 16)) = some (c.toNat % 16) := by
          apply bytes
          decide +kernel
        have e : c = UInt8.ofNat (16 * (c.toNat / 16) + c.toNat % 16) := by
          rw [Nat.div_add_mod]; simp
        conv => rhs; rw [e]
        exact .hex _ _ _ _ (k c).1 (k c).2
      · rename_i h
        refine .plain _ ?_
        have k : ∀ c : UInt8, shouldEscape .queryComponent c ≠ true → c ∉ g!"&=+%;" := by
          apply bytes
          decide +kernel
        exact k c h

theorem form_encode (l : List (Str × Str)) : Form (encode l) (sortKeys l) := by
  have hp : ∀ x, FormPair (pair x) x := fun x =>
    ⟨_, _, by simp [pair], formText_escape x.1, formText_escape x.2⟩
  rw [encode]
  generalize sortKeys l = m
  induction m with
  | nil => exact .nil
  | cons x m ih =>
    cases m with
    | nil => simpa [List.intercalate] using Form.one (hp x)
    | cons y m =>
      have : (g!"&").intercalate ((x :: y :: m).map pair) = pair x ++ 38 :: (g!"&").intercalate ((y :: m).map pair) := by
        simp [List.intercalate]
      rw [this]
      exact .cons (hp x) ih

/-! ### Credentials -/

/-- The characters of an encoding. -/
theorem stdChars (s : Str) : ∀ b ∈ Go.b64 s, stdVal (if b = 45 then 43 else if b = 95 then 47 else b) = Go.b64Val b ∧
    (if b = 45 then (43 : UInt8) else if b = 95 then 47 else b) ∉ [10, 13, 61] := by
  intro b hb
  rw [Go.b64_eq] at hb
  obtain ⟨n, hn, rfl⟩ := List.mem_map.1 hb
  have k : ∀ n : Fin 64, let b := Go.b64Char n.val
      stdVal (if b = 45 then 43 else if b = 95 then 47 else b) = Go.b64Val b ∧
      (if b = 45 then (43 : UInt8) else if b = 95 then 47 else b) ∉ [10, 13, 61] := by decide +kernel
  exact k ⟨n, Go.b64Nums_lt s n hn⟩

theorem mapM_map_congr {f : UInt8 → UInt8} {g h : UInt8 → Option Nat} {l : Str} (e : ∀ b ∈ l, g (f b) = h b) :
    (l.map f).mapM g = l.mapM h := by
  induction l with
  | nil => rfl
  | cons b l ih =>
    simp only [List.map_cons, List.mapM_cons, e b (by simp), ih fun x hx => e x (by simp [hx])]

/-- **Round trip.** -/
theorem stdDecode_stdEncode (s : Str) : stdDecode (stdEncode s) = some s := by
  unfold stdDecode stdEncode
  dsimp only
  generalize ht : (Go.b64 s).map (fun b => if b = 45 then (43 : UInt8) else if b = 95 then 47 else b) = t
  have hfree : ∀ b ∈ t, b ≠ 10 ∧ b ≠ 13 ∧ b ≠ 61 := by
    rw [← ht]
    intro b hb
    obtain ⟨c, hc, rfl⟩ := List.mem_map.1 hb
    have := (stdChars s c hc).2
    simpa using this
  have hlen : t.length % 4 = 0 ∨ t.length % 4 = 2 ∨ t.length % 4 = 3 := by
    rw [← ht, List.length_map, Go.b64_length]
    omega
  have hstrip : ∀ n, Go.stripLines (t ++ List.replicate n 61) = t ++ List.replicate n 61 := by
    intro n
    rw [Go.stripLines, List.filter_eq_self]
    intro b hb
    rcases List.mem_append.1 hb with hb | hb
    · have := hfree b hb; simp [this.1, this.2.1]
    · rw [List.eq_of_mem_replicate hb]; decide
  have hsuf : ∀ u : Str, ¬ (61 :: u) <:+ t := fun u h => (hfree 61 (h.subset (by simp))).2.2 rfl
  have hun : unpad (t ++ List.replicate ((4 - t.length % 4) % 4) 61) = some t := by
    rcases hlen with h | h | h
    · rw [h]
      show unpad (t ++ []) = _
      rw [List.append_nil, unpad, if_neg (by omega), if_neg (hsuf [61]), if_neg (hsuf [])]
    · rw [h]
      show unpad (t ++ [61, 61]) = _
      rw [unpad, if_neg (by simp; omega), if_pos (List.suffix_append ..)]
      simp
    · rw [h]
      show unpad (t ++ [61]) = _
      rw [unpad, if_neg (by simp; omega), if_neg, if_pos (List.suffix_append ..)]
      · simp
      · rintro ⟨p, hp⟩
        have : p ++ [61] = t := by
          have := congrArg List.dropLast hp
          simpa [List.dropLast_append_of_ne_nil] using this
        exact (hfree 61 (by rw [← this]; simp)).2.2 rfl
  rw [hstrip, hun]
  show (t.mapM stdVal).bind Go.b64Groups = some s
  have e : t.mapM stdVal = (Go.b64 s).mapM Go.b64Val := by
    rw [← ht]
    exact mapM_map_congr fun b hb => (stdChars s b hb).1
  rw [e]
  have := Go.b64Decode_b64 s
  unfold Go.b64Decode at this
  rwa [Go.b64_eq, Go.stripLines_b64 (Go.b64Nums_lt s), ← Go.b64_eq] at this

theorem basicOf_basicAuth (user pass scheme : Str) (hu : 58 ∉ user) (hs : scheme.map asciiLower = g!"basic") :
    basicOf (scheme ++ 32 :: stdEncode (user ++ 58 :: pass)) = some (user, pass) := by
  have hl : scheme.length = 5 := by simpa using congrArg List.length hs
  have hk : ∀ b : UInt8, lowerByte b = asciiLower b := by
    apply bytes
    decide +kernel
  have ht : (scheme ++ 32 :: stdEncode (user ++ 58 :: pass)).take 6 = scheme ++ [32] := by
    rw [List.take_append, hl, List.take_of_length_le (by omega)]
    rfl
  have hd : (scheme ++ 32 :: stdEncode (user ++ 58 :: pass)).drop 6 = stdEncode (user ++ 58 :: pass) := by
    rw [List.drop_append, hl, List.drop_of_length_le (by omega)]
    rfl
  rw [basicOf, if_neg, hd, stdDecode_stdEncode]
  · simp only [List.mem_append, List.mem_cons, true_or, or_true, if_true, cut_append hu]
  · rw [ht, not_or]
    refine ⟨by simp [hl]; omega, ?_⟩
    rw [not_not, List.map_append, funext hk, hs]
    decide

end Verif.Raw
