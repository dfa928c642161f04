import Verif.Spec.Challenge
import Verif.Proofs.Headers
import Verif.Proofs.Blank

/-! Challenges are read in one way: a reader, and facts on quoted texts. -/
namespace Verif.Spec
open Verif.Headers (quote Line)

/-- The text up to the closing quotation mark, and what is behind it. -/
def readQuoted : Str → Option (Str × Str)
  | [] => none
  | b :: s =>
    if b = 34 then some ([], s)
    else if b = 92 then
      match s with
      | c :: s' => if EscapedByte c then (readQuoted s').map fun x => (c :: x.1, x.2) else none
      | [] => none
    else if QuotedByte b then (readQuoted s).map fun x => (b :: x.1, x.2) else none

theorem readQuoted_of {q v : Str} (h : QuotedText q v) (r : Str) : readQuoted (q ++ 34 :: r) = some (v, r) := by
  induction h with
  | nil => rw [List.nil_append, readQuoted.eq_def]; simp
  | @plain b s v hb _ ih =>
    have h1 : b ≠ 34 := by rcases hb with rfl | hb; decide; exact hb.2.1
    have h2 : b ≠ 92 := by rcases hb with rfl | hb; decide; exact hb.2.2.1
    rw [List.cons_append, readQuoted.eq_def]
    simp [h1, h2, hb, ih]
  | escaped hb _ ih =>
    rw [List.cons_append, List.cons_append, readQuoted.eq_def]
    simp [hb, ih]

theorem not_token_delim {b : UInt8} (h : b ∈ g!"\t \"=,") : ¬ TokenByte b := by
  revert h b; apply Go.bytes_all; decide +kernel

/-- The token at the head, and what is behind it. -/
def readToken (s : Str) : Str × Str := (s.takeWhile fun b => TokenByte b, s.dropWhile fun b => TokenByte b)

/-- What ends a token. -/
def Ends (r : Str) : Prop := ∀ b, r.head? = some b → ¬ TokenByte b

theorem readToken_of {s : Str} (h : ∀ b ∈ s, TokenByte b) {r : Str} (hr : Ends r) : readToken (s ++ r) = (s, r) := by
  have h' : ∀ b ∈ s, (fun b => decide (TokenByte b)) b = true := fun b hb => decide_eq_true (h b hb)
  have e1 : r.takeWhile (fun b => decide (TokenByte b)) = [] := by
    cases r with
    | nil => rfl
    | cons b r => simp [List.takeWhile, hr b rfl]
  have e2 : r.dropWhile (fun b => decide (TokenByte b)) = r := by
    cases r with
    | nil => rfl
    | cons b r => simp [List.dropWhile, hr b rfl]
  simp [readToken, List.takeWhile_append_of_pos h', List.dropWhile_append_of_pos h', e1, e2]

/-- The parameter at the head. -/
def readParam (s : Str) : Option ((Str × Str) × Str) :=
  let (n, s) := readToken s
  match s with
  | 61 :: 34 :: s => (readQuoted s).map fun x => ((n, x.1), x.2)
  | 61 :: s => let (v, r) := readToken s; some ((n, v), r)
  | _ => none

theorem readParam_of {s : Str} {p : Str × Str} (h : AuthParam s p) {r : Str} (hr : Ends r) : readParam (s ++ r) = some (p, r) := by
  have he : ∀ x, Ends (61 :: x) := fun x b hb => by cases hb; decide
  cases h with
  | @token n v hn hv =>
    have h1 : readToken (n ++ 61 :: (v ++ r)) = (n, 61 :: (v ++ r)) := readToken_of hn.2 (he _)
    have h2 := readToken_of hv.2 hr
    have hv0 : ∀ x, v ++ r ≠ 34 :: x := by
      intro x hx
      obtain ⟨b, v', rfl⟩ := List.exists_cons_of_ne_nil hv.1
      cases hx
      exact not_token_delim (by decide) (hv.2 34 (by simp))
    unfold readParam
    rw [List.append_assoc, List.cons_append, h1]
    dsimp only
    split
    · rename_i hx; exact absurd (List.cons.inj hx).2 (hv0 _)
    · rename_i hx; rw [← (List.cons.inj hx).2, h2]
    · rename_i hx; exact absurd rfl (hx _)
  | @quoted n q v hn hq =>
    have e : n ++ 61 :: 34 :: q ++ [34] ++ r = n ++ 61 :: 34 :: (q ++ 34 :: r) := by simp
    have h1 : readToken (n ++ 61 :: 34 :: (q ++ 34 :: r)) = (n, 61 :: 34 :: (q ++ 34 :: r)) := readToken_of hn.2 (he _)
    rw [e]
    unfold readParam
    rw [h1]
    simp only [readQuoted_of hq]
    rfl

def dropBlanks (s : Str) : Str := s.dropWhile fun b => b = 32 ∨ b = 9

theorem dropBlanks_of {x : Str} (h : Blanks x) {c : UInt8} (hc : ¬ (c = 32 ∨ c = 9)) (s : Str) : dropBlanks (x ++ c :: s) = c :: s := by
  have h' : ∀ b ∈ x, (fun b : UInt8 => decide (b = 32 ∨ b = 9)) b = true := fun b hb => decide_eq_true (h b hb)
  rw [dropBlanks, List.dropWhile_append_of_pos h', List.dropWhile_cons_of_neg (by simpa using hc)]

theorem param_head {s : Str} {p : Str × Str} (h : AuthParam s p) : ∃ c t, s = c :: t ∧ TokenByte c := by
  have k : ∀ {n : Str} (t : Str), IsToken n → ∃ c t', n ++ t = c :: t' ∧ TokenByte c := by
    intro n t hn
    obtain ⟨b, n', rfl⟩ := List.exists_cons_of_ne_nil hn.1
    exact ⟨b, n' ++ t, rfl, hn.2 b (by simp)⟩
  cases h with
  | token hn _ => exact k _ hn
  | quoted hn _ => rw [List.append_assoc]; exact k _ hn

theorem params_head {s : Str} {l : List (Str × Str)} (h : AuthParams s l) : ∃ c t, s = c :: t ∧ TokenByte c := by
  cases h with
  | one h => exact param_head h
  | more h _ _ _ =>
    obtain ⟨c, t, rfl, hc⟩ := param_head h
    exact ⟨c, _, rfl, hc⟩

theorem param_unique {s s' t t' : Str} {p p' : Str × Str} (h : AuthParam s p) (h' : AuthParam s' p') (ht : Ends t) (ht' : Ends t')
    (e : s ++ t = s' ++ t') : p = p' ∧ t = t' := by
  have h1 := readParam_of h ht
  rw [e, readParam_of h' ht'] at h1
  cases h1
  exact ⟨rfl, rfl⟩

theorem ends_sep {x : Str} (h : Blanks x) (t : Str) : Ends (x ++ 44 :: t) := by
  intro b hb
  cases x with
  | nil => cases hb; decide
  | cons c x =>
    cases hb
    rcases h b (by simp) with rfl | rfl <;> decide

theorem blank_not_token {c : UInt8} (h : TokenByte c) : ¬ (c = 32 ∨ c = 9) := by
  rintro (rfl | rfl) <;> exact absurd h (by decide)

theorem params_unique {s : Str} {l l' : List (Str × Str)} (h : AuthParams s l) (h' : AuthParams s l') : l = l' := by
  induction h generalizing l' with
  | @one s p h =>
    have e0 : Ends [] := fun b hb => by cases hb
    generalize hs : s = s' at h'
    cases h' with
    | one h' =>
      rw [(param_unique h h' e0 e0 (by simpa using hs)).1]
    | @more s' x y t p' l h' hx hy _ =>
      have := (param_unique (t' := x ++ 44 :: (y ++ t)) h h' e0 (ends_sep hx _) (by simpa using hs)).2
      simp at this
  | @more s x y t p l h hx hy ht ih =>
    generalize hs : s ++ x ++ 44 :: y ++ t = s' at h'
    cases h' with
    | one h' =>
      have := (param_unique (t := x ++ 44 :: (y ++ t)) (t' := []) h h' (ends_sep hx _) (fun b hb => by cases hb) (by simpa using hs)).2
      simp at this
    | @more s' x' y' t' p' l h' hx' hy' ht' =>
      obtain ⟨rfl, e⟩ := param_unique (t := x ++ 44 :: (y ++ t)) (t' := x' ++ 44 :: (y' ++ t')) h h' (ends_sep hx _)
        (ends_sep hx' _) (by simpa using hs)
      have e1 := congrArg dropBlanks e
      rw [dropBlanks_of hx (by decide), dropBlanks_of hx' (by decide)] at e1
      obtain ⟨c, u, rfl, hc⟩ := params_head ht
      obtain ⟨c', u', rfl, hc'⟩ := params_head ht'
      have e2 := congrArg dropBlanks (List.cons.inj e1).2
      rw [dropBlanks_of hy (blank_not_token hc), dropBlanks_of hy' (blank_not_token hc')] at e2
      rw [← e2] at ht'
      rw [ih ht']

/-- A text is one challenge at most. -/
theorem challenge_unique {s scheme scheme' : Str} {l l' : List (Str × Str)} (h : Challenge s scheme l) (h' : Challenge s scheme' l') :
    scheme = scheme' ∧ l = l' := by
  generalize hs : s = s' at h'
  cases h with
  | @mk _ t _ hn hp =>
    cases h' with
    | @mk _ t' _ hn' hp' =>
      have he : ∀ x, Ends (32 :: x) := fun x b hb => by cases hb; decide
      have e := readToken_of hn.2 (he t)
      rw [hs, readToken_of hn'.2 (he t')] at e
      obtain ⟨rfl, e⟩ := Prod.mk.inj e
      cases e
      exact ⟨rfl, params_unique hp hp'⟩

/-! ### Texts that are quoted -/

theorem quotedText_plain {v : Str} (h : ∀ b ∈ v, QuotedByte b) : QuotedText v v := by
  induction v with
  | nil => exact .nil
  | cons b v ih => exact .plain (h b (by simp)) (ih fun c hc => h c (by simp [hc]))

theorem quotedText_byte {b : UInt8} (hb : 32 ≤ b ∧ b < 127) {s v : Str} (h : QuotedText s v) : QuotedText (quote.byte b ++ s) (b :: v) := by
  have k : ∀ b : UInt8, 32 ≤ b ∧ b < 127 → (quote.byte b = [b] ∧ QuotedByte b) ∨ (quote.byte b = [92, b] ∧ EscapedByte b) := by
    apply Go.bytes_all
    decide +kernel
  rcases k b hb with ⟨e, hq⟩ | ⟨e, hq⟩ <;> rw [e]
  · exact .plain hq h
  · exact .escaped hq h

/-- Go's `%q` of a printable text is a `quoted-string` of it. -/
theorem quotedText_quote {v : Str} (h : Line v) : ∃ q, quote v = 34 :: q ++ [34] ∧ QuotedText q v := by
  refine ⟨v.flatMap quote.byte, rfl, ?_⟩
  induction v with
  | nil => exact .nil
  | cons b v ih =>
    exact quotedText_byte (h b (by simp)) (ih fun c hc => h c (by simp [hc]))

theorem authParam_quote {n v : Str} (hn : IsToken n) (h : Line v) : AuthParam (n ++ 61 :: quote v) (n, v) := by
  obtain ⟨q, e, hq⟩ := quotedText_quote h
  rw [e]
  have := AuthParam.quoted hn hq
  simpa using this

theorem authParams_more {s t : Str} {p : Str × Str} {l : List (Str × Str)} (h : AuthParam s p) (ht : AuthParams t l) :
    AuthParams (s ++ g!", " ++ t) (p :: l) := by
  have := AuthParams.more (x := []) (y := [32]) h (by simp [Blanks]) (by simp [Blanks]) ht
  simpa using this

end Verif.Spec
