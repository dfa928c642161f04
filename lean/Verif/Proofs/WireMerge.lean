import Verif.Proofs.PbMap

/-! Decoding does not depend on where in the input a field stands, nor on what follows it:
two encodings after each other are decoded as one after the other. -/
namespace Verif.Wire
open Verif.Jose (Out)

/-- The result with the index moved. -/
def moved {α : Type} (n : Nat) : Out (α × Nat) → Out (α × Nat)
  | .ok (x, i) => .ok (x, n + i)
  | .err => .err
  | .panic => .panic

theorem readVarint_shift (w : Nat) (a d : Str) (k shift acc i : Nat) :
    readVarint w (a ++ d) k shift acc (a.length + i) = moved a.length (readVarint w d k shift acc i) := by
  induction k generalizing shift acc i with
  | zero => rfl
  | succ k ih =>
    unfold readVarint
    by_cases h : i ≥ d.length
    · rw [if_pos (by simp; omega), if_pos h]; rfl
    · rw [if_neg (by simp; omega), if_neg h, List.getElem?_append_right (by omega), Nat.add_sub_cancel_left,
        List.getElem?_eq_getElem (by omega)]
      simp only
      split
      · rfl
      · rw [Nat.add_assoc, ih]

theorem slice_shift (a d : Str) (i j : Nat) : slice (a ++ d) (a.length + i) (a.length + j) = slice d i j := by
  unfold slice
  by_cases h : i ≤ j ∧ j ≤ d.length
  · rw [if_pos (by simp; omega), if_pos h, List.drop_append, Nat.add_sub_add_left, List.drop_of_length_le (by omega),
      List.nil_append, Nat.add_sub_cancel_left]
  · rw [if_neg (by simp; omega), if_neg h]

theorem readBytes_shift (a d : Str) (i : Nat) (hl : (a ++ d).length < 2 ^ 63) :
    readBytes (a ++ d) (a.length + i) = moved a.length (readBytes d i) := by
  rw [List.length_append] at hl
  unfold readBytes
  rw [readVarint_shift]
  cases hr : readVarint 64 d 10 0 0 i with
  | err => rfl
  | panic => rfl
  | ok p =>
    obtain ⟨n, j⟩ := p
    simp only [moved]
    by_cases h1 : n ≥ 2 ^ 63
    · rw [if_pos h1, if_pos h1]
    · rw [if_neg h1, if_neg h1]
      by_cases h2 : j + n > d.length
      · rw [if_pos (show a.length + j + n > (a ++ d).length by simp; omega), if_pos h2, ite_self, ite_self]
      · rw [if_neg (by omega), if_neg (by simp; omega), if_neg (by omega), if_neg h2, Nat.add_assoc, slice_shift]
        cases slice d j (j + n) <;> rfl

theorem readLe64_shift (a d : Str) (i : Nat) : readLe64 (a ++ d) (a.length + i) = readLe64 d i := by
  have e : ∀ k, (a ++ d).getD (a.length + i + k) 0 = d.getD (i + k) 0 := by
    intro k
    rw [List.getD_eq_getElem?_getD, List.getD_eq_getElem?_getD, Nat.add_assoc, List.getElem?_append_right (by omega),
      Nat.add_sub_cancel_left]
  unfold readLe64
  by_cases h : i + 8 ≤ d.length
  · rw [if_pos (by simp; omega), if_pos h]
    simp only [e]
  · rw [if_neg (by simp; omega), if_neg h]

theorem readWord_shift (a d : Str) (i : Nat) : readWord (a ++ d) (a.length + i) = moved a.length (readWord d i) := by
  unfold readWord
  by_cases h : i + 8 > d.length
  · rw [if_pos (by simp; omega), if_pos h]; rfl
  · rw [if_neg (by simp; omega), if_neg h, readLe64_shift]
    cases readLe64 d i <;> simp [moved, Nat.add_assoc]

theorem skip_shift (a d : Str) (i : Nat) : skip (a ++ d) (a.length + i) = skip d i := by
  have : (a ++ d).drop (a.length + i) = d.drop i := by rw [List.drop_append]; simp
  unfold skip
  rw [this]

theorem entryLoop_shift (a d : Str) (hl : (a ++ d).length < 2 ^ 63) (post : Nat) (hp : post ≤ d.length) (n i : Nat) (k v : Str) :
    entryLoop (a ++ d) (a.length + post) n (a.length + i) k v = entryLoop d post n i k v := by
  have hl' := hl
  rw [List.length_append] at hl'
  induction n generalizing i k v with
  | zero =>
    unfold entryLoop
    by_cases h : i < post
    · rw [if_pos (by omega), if_pos h]
    · rw [if_neg (by omega), if_neg h]
  | succ n ih =>
    unfold entryLoop
    by_cases h : i < post
    · rw [if_pos (by omega), if_pos h, readVarint_shift]
      cases readVarint 64 d 10 0 0 i with
      | err => rfl
      | panic => rfl
      | ok p =>
        obtain ⟨wire, j⟩ := p
        simp only [moved]
        rw [readBytes_shift a d j hl, skip_shift]
        split
        · cases readBytes d j with
          | err => rfl
          | panic => rfl
          | ok q => exact ih _ _ _
        · split
          · cases readBytes d j with
            | err => rfl
            | panic => rfl
            | ok q => exact ih _ _ _
          · cases skip d i with
            | err => rfl
            | panic => rfl
            | ok s =>
              simp only
              by_cases h2 : i + s > post
              · rw [if_pos (show a.length + i + s > a.length + post by omega), if_pos h2]
                split <;> split <;> rfl
              · rw [if_neg (by omega), if_neg (by omega), if_neg (by omega), if_neg h2, Nat.add_assoc]
                exact ih _ _ _
    · rw [if_neg (by omega), if_neg h]

/-! ### What follows -/

theorem readVarint_more {w : Nat} {d : Str} {k shift acc i v j : Nat} (b : Str)
    (h : readVarint w d k shift acc i = .ok (v, j)) : readVarint w (d ++ b) k shift acc i = .ok (v, j) := by
  obtain ⟨h1, h2, h3⟩ := readVarint_ok h
  have := h3 (d ++ b) i fun t ht => by rw [List.getElem?_append_left (by omega)]
  rwa [show i + (j - i) = j by omega] at this

theorem slice_more {d s : Str} {i j : Nat} (b : Str) (h : slice d i j = .ok s) : slice (d ++ b) i j = .ok s := by
  unfold slice at h ⊢
  split at h
  · rename_i hc
    rw [if_pos (by simp; omega), List.drop_append_of_le_length (by omega), List.take_append_of_le_length (by simp; omega)]
    exact h
  · simp at h

theorem readBytes_more {d s : Str} {i j : Nat} (b : Str) (h : readBytes d i = .ok (s, j)) :
    readBytes (d ++ b) i = .ok (s, j) := by
  unfold readBytes at h ⊢
  split at h
  · simp at h
  · simp at h
  · rename_i n i' hr
    rw [readVarint_more b hr]
    simp only
    split at h
    · simp at h
    · rename_i h1
      split at h
      · simp at h
      · rename_i h2
        split at h
        · simp at h
        · rename_i h3
          rw [if_neg h1, if_neg h2, if_neg (by simp; omega)]
          split at h
          · simp at h
          · simp at h
          · rename_i hs
            rw [slice_more b hs]
            exact h

theorem foldl_same {α β : Type} (f g : β → α → β) (l : List α) (h : ∀ acc, ∀ k ∈ l, f acc k = g acc k) (acc : β) :
    l.foldl f acc = l.foldl g acc := by
  induction l generalizing acc with
  | nil => rfl
  | cons a l ih => rw [List.foldl_cons, List.foldl_cons, h acc a (by simp), ih fun acc k hk => h acc k (by simp [hk])]

theorem readWord_more {d : Str} {i : Nat} {x : UInt64} {j : Nat} (b : Str) (h : readWord d i = .ok (x, j)) :
    readWord (d ++ b) i = .ok (x, j) := by
  unfold readWord at h ⊢
  split at h
  · simp at h
  · rename_i h1
    rw [if_neg (by simp; omega)]
    have e : readLe64 (d ++ b) i = readLe64 d i := by
      unfold readLe64
      rw [if_pos (by simp; omega), if_pos (by omega)]
      have e : ∀ k, k < 8 → (d ++ b).getD (i + k) 0 = d.getD (i + k) 0 := fun k hk => by
        rw [List.getD_eq_getElem?_getD, List.getD_eq_getElem?_getD, List.getElem?_append_left (by omega)]
      exact congrArg (fun n => Out.ok (UInt64.ofNat n))
        (foldl_same _ _ (List.range 8) (fun acc k hk => by rw [e k (List.mem_range.1 hk)]) 0)
    rw [e]
    exact h

theorem skip_more {d : Str} {i n : Nat} (b : Str) (hl : d.length < 2 ^ 63) (h : skip d i = .ok n) (hn : i + n ≤ d.length) :
    skip (d ++ b) i = .ok n := by
  unfold skip at h ⊢
  obtain ⟨h1, _, h2⟩ := skipLoop_ok h
  have h3 : n ≤ (d.drop i).length := by rw [List.length_drop]; omega
  have := h2 h3 ((d ++ b).drop i) 0 (((d ++ b).drop i).length + 1) ?_ (by omega)
    (by simp; omega) (by simp; omega)
  · simpa using this
  · intro t ht
    rw [Nat.zero_add, List.getElem?_drop, List.getElem?_drop, List.getElem?_append_left (by omega)]

theorem entryLoop_more {d : Str} {post n i : Nat} {k v : Str} {r : Str × Str} (b : Str) (hl : d.length < 2 ^ 63)
    (hp : post ≤ d.length) (h : entryLoop d post n i k v = .ok r) : entryLoop (d ++ b) post n i k v = .ok r := by
  induction n generalizing i k v with
  | zero => exact h
  | succ n ih =>
    unfold entryLoop at h ⊢
    split at h
    · rename_i hi
      rw [if_pos hi]
      split at h
      · simp at h
      · simp at h
      · rename_i wire j hr
        rw [readVarint_more b hr]
        simp only
        split at h
        · rename_i h1
          rw [if_pos h1]
          split at h
          · simp at h
          · simp at h
          · rename_i hb
            rw [readBytes_more b hb]
            exact ih h
        · rename_i h1
          rw [if_neg h1]
          split at h
          · rename_i h2
            rw [if_pos h2]
            split at h
            · simp at h
            · simp at h
            · rename_i hb
              rw [readBytes_more b hb]
              exact ih h
          · rename_i h2
            rw [if_neg h2]
            split at h
            · simp at h
            · simp at h
            · rename_i s hs
              split at h
              · simp at h
              · rename_i h3
                split at h
                · simp at h
                · rename_i h4
                  rw [skip_more b hl hs (by omega)]
                  simp only
                  rw [if_neg h3, if_neg h4]
                  exact ih h
    · rename_i hi
      rw [if_neg hi]
      exact h

/-! ### Handlers -/

variable {M S : Type}

/-- A handler reads what stands at the index: wherever that is, and whatever follows. -/
structure Uniform (h : Handler M) : Prop where
  shift : ∀ a d wt i m, (a ++ d).length < 2 ^ 63 → h (a ++ d) wt (a.length + i) m = moved a.length (h d wt i m)
  more : ∀ d b wt i m m' j, d.length < 2 ^ 63 → h d wt i m = .ok (m', j) → h (d ++ b) wt i m = .ok (m', j)

theorem uniform_str (set : Str → M → M) : Uniform (onStr set) := by
  refine ⟨fun a d wt i m hl => ?_, fun d b wt i m m' j _ h => ?_⟩
  · unfold onStr
    rw [readBytes_shift a d i hl]
    split
    · rfl
    · cases readBytes d i <;> rfl
  · unfold onStr at h ⊢
    split at h
    · simp at h
    · rename_i hw
      rw [if_neg hw]
      split at h
      · simp at h
      · simp at h
      · rename_i hb
        rw [readBytes_more b hb]
        exact h

theorem uniform_fix (set : UInt64 → M → M) : Uniform (onFix set) := by
  refine ⟨fun a d wt i m hl => ?_, fun d b wt i m m' j _ h => ?_⟩
  · unfold onFix
    rw [readWord_shift a d i]
    split
    · rfl
    · cases readWord d i <;> rfl
  · unfold onFix at h ⊢
    split at h
    · simp at h
    · rename_i hw
      rw [if_neg hw]
      split at h
      · simp at h
      · simp at h
      · rename_i hb
        rw [readWord_more b hb]
        exact h

theorem uniform_enum (set : UInt32 → M → M) : Uniform (onEnum set) := by
  refine ⟨fun a d wt i m hl => ?_, fun d b wt i m m' j _ h => ?_⟩
  · unfold onEnum
    rw [readVarint_shift]
    split
    · rfl
    · cases readVarint 32 d 10 0 0 i <;> rfl
  · unfold onEnum at h ⊢
    split at h
    · simp at h
    · rename_i hw
      rw [if_neg hw]
      split at h
      · simp at h
      · simp at h
      · rename_i hb
        rw [readVarint_more b hb]
        exact h

theorem uniform_varint (set : UInt64 → M → M) : Uniform (onVarint set) := by
  refine ⟨fun a d wt i m hl => ?_, fun d b wt i m m' j _ h => ?_⟩
  · unfold onVarint
    rw [readVarint_shift]
    split
    · rfl
    · cases readVarint 64 d 10 0 0 i <;> rfl
  · unfold onVarint at h ⊢
    split at h
    · simp at h
    · rename_i hw
      rw [if_neg hw]
      split at h
      · simp at h
      · simp at h
      · rename_i hb
        rw [readVarint_more b hb]
        exact h

theorem uniform_bool (set : Bool → M → M) : Uniform (onBool set) := by
  refine ⟨fun a d wt i m hl => ?_, fun d b wt i m m' j _ h => ?_⟩
  · unfold onBool
    rw [readVarint_shift]
    split
    · rfl
    · cases readVarint 64 d 10 0 0 i <;> rfl
  · unfold onBool at h ⊢
    split at h
    · simp at h
    · rename_i hw
      rw [if_neg hw]
      split at h
      · simp at h
      · simp at h
      · rename_i hb
        rw [readVarint_more b hb]
        exact h

theorem uniform_msg (get : M → S) (set : S → M → M) (dec : S → Str → Out S) : Uniform (onMsg get set dec) := by
  refine ⟨fun a d wt i m hl => ?_, fun d b wt i m m' j _ h => ?_⟩
  · unfold onMsg
    rw [readBytes_shift a d i hl]
    split
    · rfl
    · cases readBytes d i with
      | err => rfl
      | panic => rfl
      | ok p =>
        simp only [moved]
        cases dec (get m) p.1 <;> rfl
  · unfold onMsg at h ⊢
    split at h
    · simp at h
    · rename_i hw
      rw [if_neg hw]
      split at h
      · simp at h
      · simp at h
      · rename_i hb
        rw [readBytes_more b hb]
        exact h

theorem uniform_map (get : M → List (Str × Str)) (set : List (Str × Str) → M → M) : Uniform (onMap get set) := by
  refine ⟨fun a d wt i m hl => ?_, fun d b wt i m m' j hl h => ?_⟩
  · have hl' := hl
    rw [List.length_append] at hl'
    unfold onMap
    rw [readVarint_shift]
    split
    · rfl
    · cases readVarint 64 d 10 0 0 i with
      | err => rfl
      | panic => rfl
      | ok p =>
        obtain ⟨n, j⟩ := p
        simp only [moved]
        by_cases h1 : n ≥ 2 ^ 63
        · rw [if_pos h1, if_pos h1]
        · rw [if_neg h1, if_neg h1]
          by_cases h2 : j + n > d.length
          · rw [if_pos (show a.length + j + n > (a ++ d).length by simp; omega), if_pos h2, ite_self, ite_self]
          · rw [if_neg (by omega), if_neg (by simp; omega), if_neg (by omega), if_neg h2, Nat.add_assoc,
              entryLoop_shift a d hl _ (by omega)]
            cases entryLoop d (j + n) n j [] [] <;> rfl
  · unfold onMap at h ⊢
    split at h
    · simp at h
    · rename_i hw
      rw [if_neg hw]
      split at h
      · simp at h
      · simp at h
      · rename_i n j' hr
        rw [readVarint_more b hr]
        simp only
        split at h
        · simp at h
        · rename_i h1
          split at h
          · simp at h
          · rename_i h2
            split at h
            · simp at h
            · rename_i h3
              rw [if_neg h1, if_neg h2, if_neg (by simp; omega)]
              split at h
              · simp at h
              · simp at h
              · rename_i he
                rw [entryLoop_more b hl (by omega) he]
                exact h

theorem uniform_cons {n : Nat} {h : Handler M} {l : List (Nat × Handler M)} (hh : Uniform h) (hl : ∀ p ∈ l, Uniform p.2) :
    ∀ p ∈ (n, h) :: l, Uniform p.2 := by
  intro p hp
  rcases List.mem_cons.1 hp with rfl | hp
  · exact hh
  · exact hl p hp

/-! ### Messages -/

variable {fields : List (Nat × Handler M)} {unknown : Str → M → M}

theorem step_shift (hf : ∀ p ∈ fields, Uniform p.2) (a d : Str) (i : Nat) (m : M) (hl : (a ++ d).length < 2 ^ 63) :
    step fields unknown (a ++ d) (a.length + i) m = moved a.length (step fields unknown d i m) := by
  have hl' := hl
  rw [List.length_append] at hl'
  unfold step
  rw [readVarint_shift]
  cases readVarint 64 d 10 0 0 i with
  | err => rfl
  | panic => rfl
  | ok p =>
    obtain ⟨wire, j⟩ := p
    simp only [moved]
    split
    · rfl
    · split
      · rfl
      · split
        · rename_i hh
          exact (hf _ (lookup_mem hh)).shift _ _ _ _ _ hl
        · rw [skip_shift]
          cases skip d i with
          | err => rfl
          | panic => rfl
          | ok n =>
            simp only
            by_cases h2 : i + n > d.length
            · rw [if_pos (show a.length + i + n > (a ++ d).length by simp; omega), if_pos h2, ite_self, ite_self]
            · rw [if_neg (by omega), if_neg (by simp; omega), if_neg (by omega), if_neg h2, Nat.add_assoc, slice_shift]
              cases slice d i (i + n) <;> rfl

theorem step_more (hf : ∀ p ∈ fields, Uniform p.2) {d : Str} {i : Nat} {m m' : M} {j : Nat} (b : Str)
    (hl : d.length < 2 ^ 63) (h : step fields unknown d i m = .ok (m', j)) :
    step fields unknown (d ++ b) i m = .ok (m', j) := by
  unfold step at h ⊢
  split at h
  · simp at h
  · simp at h
  · rename_i wire i' hr
    rw [readVarint_more b hr]
    simp only at h ⊢
    split at h
    · simp at h
    · rename_i h1
      rw [if_neg h1]
      split at h
      · simp at h
      · rename_i h2
        rw [if_neg h2]
        split at h
        · rename_i hh
          exact (hf _ (lookup_mem hh)).more _ _ _ _ _ _ _ hl h
        · rename_i hh
          split at h
          · simp at h
          · simp at h
          · rename_i n hs
            split at h
            · simp at h
            · rename_i h3
              split at h
              · simp at h
              · rename_i h4
                rw [skip_more b hl hs (by omega)]
                simp only
                rw [if_neg h3, if_neg (by simp; omega)]
                split at h
                · simp at h
                · simp at h
                · rename_i hsl
                  rw [slice_more b hsl]
                  exact h

/-- An encoding followed by another is decoded into a message by decoding the first into it
and the second into the result. -/
theorem unmarshal_append {P : M → Prop} (hs : ∀ p ∈ fields, Sane P p.2) (hf : ∀ p ∈ fields, Uniform p.2) {a b : Str}
    {m m' : M} (hl : (a ++ b).length < 2 ^ 63) (h : unmarshal fields unknown m a = .ok m') :
    unmarshal fields unknown m (a ++ b) = unmarshal fields unknown m' b := by
  have hs' : ∀ p ∈ fields, Sane (fun _ => True) p.2 := fun p hp =>
    ⟨(hs p hp).noPanic, (hs p hp).moves, fun _ _ _ _ _ _ _ _ => trivial⟩
  have hl' := hl
  rw [List.length_append] at hl'
  -- the second part, wherever it is
  have tail : ∀ k i m, loop fields unknown (a ++ b) k (a.length + i) m = loop fields unknown b k i m := by
    intro k
    induction k with
    | zero =>
      intro i m
      unfold loop
      by_cases h1 : i < b.length
      · rw [if_pos (by simp; omega), if_pos h1]
      · rw [if_neg (by simp; omega), if_neg h1]
        by_cases h2 : i > b.length
        · rw [if_pos (by simp; omega), if_pos h2]
        · rw [if_neg (by simp; omega), if_neg h2]
    | succ k ih =>
      intro i m
      unfold loop
      by_cases h1 : i < b.length
      · rw [if_pos (by simp; omega), if_pos h1, step_shift hf a b i m hl]
        cases step fields unknown b i m with
        | err => rfl
        | panic => rfl
        | ok p => exact ih _ _
      · rw [if_neg (by simp; omega), if_neg h1]
        by_cases h2 : i > b.length
        · rw [if_pos (by simp; omega), if_pos h2]
        · rw [if_neg (by simp; omega), if_neg h2]
  -- the first part
  have head : ∀ k i m, a.length - i ≤ k → i ≤ a.length → loop fields unknown a k i m = .ok m' →
      loop fields unknown (a ++ b) (k + b.length) i m = loop fields unknown b b.length 0 m' := by
    intro k
    induction k with
    | zero =>
      intro i m hk hi h
      unfold loop at h
      rw [if_neg (by omega), if_neg (by omega)] at h
      cases h
      obtain rfl : i = a.length := by omega
      rw [Nat.zero_add]
      exact tail _ 0 _
    | succ k ih =>
      intro i m hk hi h
      unfold loop at h
      split at h
      · rename_i h1
        rw [show k + 1 + b.length = (k + b.length) + 1 by omega]
        conv => lhs; unfold loop
        rw [if_pos (by simp; omega)]
        split at h
        · simp at h
        · simp at h
        · rename_i m1 j hst
          have hst' := step_ok hs' (fun _ _ _ _ => trivial) hst
          rw [step_more hf b (by omega) hst]
          simp only
          exact ih _ _ (by omega) hst'.2.1 h
      · split at h
        · simp at h
        · cases h
          obtain rfl : i = a.length := by omega
          have := tail (k + 1 + b.length) 0 m'
          refine Eq.trans this ?_
          exact loop_fuel hs' b _ _ _ _ (by omega) (by omega)
  unfold unmarshal at h ⊢
  rw [List.length_append]
  exact head _ _ _ (by omega) (by omega) h

theorem uniform_none : ∀ p ∈ ([] : List (Nat × Handler M)), Uniform p.2 := by simp

end Verif.Wire
