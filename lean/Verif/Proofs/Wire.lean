import Verif.Model.Wire

/-! The building blocks of the binary codec: what is written and that it is read back. -/
namespace Verif.Wire
open Verif.Jose (Out)

/-! ### Varints -/

/-- The bytes of a varint. -/
def varint (v : Nat) : Str :=
  if v ≥ 128 then UInt8.ofNat (v % 128 + 128) :: varint (v / 128) else [UInt8.ofNat v]
termination_by v
decreasing_by omega

theorem log2_or_one {x : Nat} (h : 1 ≤ x) : Nat.log2 (x ||| 1) = Nat.log2 x := by
  have hx : x ≠ 0 := by omega
  have ho : x ||| 1 ≠ 0 := by
    have : 1 ≤ x ||| 1 := Nat.right_le_or
    omega
  have h1 := (Nat.log2_eq_iff hx).1 rfl
  refine (Nat.log2_eq_iff ho).2 ⟨Nat.le_trans h1.1 Nat.left_le_or, ?_⟩
  refine Nat.or_lt_two_pow h1.2 ?_
  exact Nat.one_lt_two_pow (by omega)

theorem sov_small {v : Nat} (h : v < 128) : sov v = 1 := by
  unfold sov
  have : Nat.log2 (v ||| 1) < 7 := by
    have h2 : v ||| 1 < 2 ^ 7 := Nat.or_lt_two_pow (by omega) (by omega)
    have ho : v ||| 1 ≠ 0 := by
      have : 1 ≤ v ||| 1 := Nat.right_le_or
      omega
    exact (Nat.log2_lt ho).2 h2
  omega

theorem sov_step {v : Nat} (h : v ≥ 128) : sov v = sov (v / 128) + 1 := by
  unfold sov
  rw [log2_or_one (by omega), log2_or_one (by omega)]
  have hv : v ≠ 0 := by omega
  have hv' : v / 128 ≠ 0 := by omega
  have h1 := (Nat.log2_eq_iff hv').1 rfl
  have : Nat.log2 v = Nat.log2 (v / 128) + 7 := by
    refine (Nat.log2_eq_iff hv).2 ⟨?_, ?_⟩
    · have := h1.1
      rw [Nat.pow_add]
      omega
    · have := h1.2
      rw [show Nat.log2 (v / 128) + 7 + 1 = (Nat.log2 (v / 128) + 1) + 7 by omega, Nat.pow_add]
      omega
  omega

theorem varint_length (v : Nat) : (varint v).length = sov v := by
  induction v using Nat.strongRecOn with
  | ind v ih =>
    unfold varint
    split
    · rw [List.length_cons, ih _ (by omega), ← sov_step (by omega)]
    · rw [sov_small (by omega)]; rfl

theorem varint_ne_nil (v : Nat) : varint v ≠ [] := by
  unfold varint
  split <;> simp

theorem setByte_append {a : Str} {x b : UInt8} {r : Str} : setByte (a ++ x :: r) a.length b = some (a ++ b :: r) := by
  simp [setByte]

theorem varintAt_append (v : Nat) {a x b : Str} (h : x.length = (varint v).length) :
    varintAt (a ++ x ++ b) a.length v = some (a ++ varint v ++ b) := by
  induction v using Nat.strongRecOn generalizing a x with
  | ind v ih =>
    cases x with
    | nil => exact absurd (List.length_eq_zero_iff.1 h.symm) (varint_ne_nil v)
    | cons y x =>
      unfold varintAt
      by_cases hv : v ≥ 128
      · have e : varint v = UInt8.ofNat (v % 128 + 128) :: varint (v / 128) := by rw [varint, if_pos hv]
        rw [if_pos hv, List.append_assoc, List.cons_append, setByte_append]
        simp only
        have := ih (v / 128) (by omega) (a := a ++ [UInt8.ofNat (v % 128 + 128)]) (x := x) (by rw [e] at h; simpa using h)
        simp only [List.length_append, List.length_singleton] at this
        rw [show a ++ UInt8.ofNat (v % 128 + 128) :: (x ++ b) = a ++ [UInt8.ofNat (v % 128 + 128)] ++ x ++ b by simp, this, e]
        simp
      · have e : varint v = [UInt8.ofNat v] := by rw [varint, if_neg hv]
        rw [e] at h
        have hx : x = [] := by simpa using h
        subst hx
        rw [if_neg hv, List.append_assoc, List.cons_append, setByte_append, e]
        simp

/-! ### Writers -/

/-- The writer puts `e` in front of what is already written and leaves the rest alone. -/
def Writes (w : Writer) (e : Str) : Prop :=
  ∀ (a x b : Str), x.length = e.length → w (a ++ x ++ b, a.length + x.length) = some (a ++ e ++ b, a.length)

theorem writes_bytes (s : Str) : Writes (putBytes s) s := by
  intro a x b h
  unfold putBytes
  simp only
  rw [if_neg (by omega)]
  simp only [h, Nat.add_sub_cancel, Option.some.injEq, Prod.mk.injEq, and_true]
  rw [List.append_assoc a x b, List.take_left, List.take_of_length_le (by simp; omega)]
  rw [show a.length + s.length = (a ++ x).length by simp [h], ← List.append_assoc a x b, List.drop_left]

theorem writes_byte (c : UInt8) : Writes (putByte c) [c] := by
  intro a x b h
  obtain ⟨y, rfl⟩ : ∃ y, x = [y] := List.length_eq_one_iff.1 (by simpa using h)
  unfold putByte
  simp only [List.length_singleton, Nat.add_sub_cancel]
  rw [if_neg (by omega), List.append_assoc, List.singleton_append, setByte_append]
  simp

theorem writes_then {v w : Writer} {e f : Str} (hv : Writes v e) (hw : Writes w f) : Writes (andThen v w) (f ++ e) := by
  intro a x b h
  rw [List.length_append] at h
  have hx : x = x.take f.length ++ x.drop f.length := (List.take_append_drop _ _).symm
  have h1 : (x.take f.length).length = f.length := by rw [List.length_take]; omega
  have h2 : (x.drop f.length).length = e.length := by rw [List.length_drop]; omega
  generalize x.take f.length = y at *
  generalize x.drop f.length = z at *
  subst hx
  unfold andThen
  have e1 := hv (a ++ y) z b h2
  rw [show a ++ (y ++ z) ++ b = a ++ y ++ z ++ b by simp,
    show a.length + (y ++ z).length = (a ++ y).length + z.length by simp; omega, e1]
  simp only
  have e2 := hw a y (e ++ b) h1
  rw [show a ++ y ++ e ++ b = a ++ y ++ (e ++ b) by simp, List.length_append, e2]
  simp

theorem writes_nil : Writes (fun s => some s) [] := by
  intro a x b h
  obtain rfl : x = [] := List.length_eq_zero_iff.1 (by simpa using h)
  simp

theorem writes_varint (v : Nat) : Writes (putVarint v) (varint v) := by
  intro a x b h
  unfold putVarint
  have hl : x.length = sov v := by rw [h, varint_length]
  simp only
  rw [if_neg (by omega), show a.length + x.length - sov v = a.length by omega, varintAt_append v h]

theorem writes_tag (t : Str) : Writes (putTag t) t := by
  induction t with
  | nil => exact writes_nil
  | cons b r ih => exact writes_then ih (writes_byte b)

/-- A part is written as `e`, and its size is computed right. -/
structure Enc (p : Part) (e : Str) : Prop where
  size : p.size = e.length
  writes : Writes p.write e

theorem enc_nil : Enc .nil [] := ⟨rfl, writes_nil⟩

theorem enc_bytes (tag s : Str) : Enc (.bytes tag s) (tag ++ varint s.length ++ s) := by
  refine ⟨?_, ?_⟩
  · simp [Part.bytes, varint_length]; omega
  · rw [List.append_assoc]
    have := writes_then (writes_bytes s) (writes_then (writes_varint s.length) (writes_tag tag))
    simpa [Part.bytes] using this

theorem le64_length (x : UInt64) : (le64 x).length = 8 := by simp [le64]

theorem enc_word (tag : Str) (x : UInt64) : Enc (.word tag x) (tag ++ le64 x) :=
  ⟨by simp [Part.word, le64_length], writes_then (writes_bytes _) (writes_tag tag)⟩

theorem enc_varint (tag : Str) (v : Nat) : Enc (.varint tag v) (tag ++ varint v) :=
  ⟨by simp [Part.varint, varint_length], writes_then (writes_varint _) (writes_tag tag)⟩

/-- What the parts of a message are written as. -/
inductive EncAll : List Part → Str → Prop
  | nil : EncAll [] []
  | cons {p : Part} {e : Str} {ps : List Part} {es : Str} : Enc p e → EncAll ps es → EncAll (p :: ps) (e ++ es)

theorem encAll_size {ps : List Part} {e : Str} (h : EncAll ps e) : sizeAll ps = e.length := by
  induction h with
  | nil => rfl
  | cons hp _ ih => simp [sizeAll, hp.size, ih]

theorem encAll_writes {ps : List Part} {e : Str} (h : EncAll ps e) : Writes (writeAll ps) e := by
  induction h with
  | nil => exact writes_nil
  | cons hp _ ih => exact writes_then ih hp.writes

theorem enc_all {ps : List Part} {e : Str} (h : EncAll ps e) : Enc (.all ps) e := ⟨encAll_size h, encAll_writes h⟩

theorem enc_msg (tag : Str) {ps : List Part} {e : Str} (h : EncAll ps e) :
    Enc (.msg tag ps) (tag ++ varint e.length ++ e) := by
  refine ⟨?_, ?_⟩
  · simp [Part.msg, varint_length, encAll_size h]; omega
  · intro a x b hx
    have hlen : x.length = (tag ++ varint e.length).length + e.length := by rw [hx, List.length_append]
    have hxs : x = x.take (tag ++ varint e.length).length ++ x.drop (tag ++ varint e.length).length :=
      (List.take_append_drop _ _).symm
    have h1 : (x.take (tag ++ varint e.length).length).length = (tag ++ varint e.length).length := by
      rw [List.length_take]; omega
    have h2 : (x.drop (tag ++ varint e.length).length).length = e.length := by rw [List.length_drop]; omega
    generalize x.take (tag ++ varint e.length).length = y at *
    generalize x.drop (tag ++ varint e.length).length = z at *
    subst hxs
    have hw := encAll_writes h (a ++ y) z [] h2
    simp only [List.append_nil, List.length_append] at hw
    unfold Part.msg
    simp only
    have ht : (a ++ (y ++ z) ++ b).take (a.length + (y ++ z).length) = a ++ y ++ z := by
      rw [show a ++ (y ++ z) ++ b = (a ++ y ++ z) ++ b by simp,
        show a.length + (y ++ z).length = (a ++ y ++ z).length by simp, List.take_left]
    have hd : (a ++ (y ++ z) ++ b).drop (a.length + (y ++ z).length) = b := by
      rw [show a ++ (y ++ z) ++ b = (a ++ y ++ z) ++ b by simp,
        show a.length + (y ++ z).length = (a ++ y ++ z).length by simp, List.drop_left]
    rw [ht, hd, show a.length + (y ++ z).length = a.length + y.length + z.length by simp; omega, hw]
    simp only
    rw [show a.length + y.length + z.length - (a.length + y.length) = e.length by omega]
    have := writes_then (writes_varint e.length) (writes_tag tag) a y (e ++ b) h1
    rw [show a ++ y ++ e ++ b = a ++ y ++ (e ++ b) by simp, this]
    simp

/-- The message is written without a crash and exactly as the parts say. -/
theorem marshal_eq {ps : List Part} {e : Str} (h : EncAll ps e) : marshal ps = some e := by
  unfold marshal
  have hs := encAll_size h
  have := encAll_writes h [] (List.replicate (sizeAll ps) 0) [] (by simp [hs])
  simp only [List.nil_append, List.append_nil, List.length_replicate, List.length_nil, Nat.zero_add] at this
  rw [this]
  simp [hs]

/-! ### Readers -/

theorem readVarint_varint (w v : Nat) (pre post : Str) (k shift acc A : Nat) (hk : shift + 7 * k = 70)
    (hne : 1 ≤ k ∨ v ≠ 0) (hv : v * 2 ^ shift < 2 ^ 64) (hA : A < 2 ^ shift) (hacc : acc = A % 2 ^ w) :
    readVarint w (pre ++ varint v ++ post) k shift acc pre.length =
      .ok ((A + v * 2 ^ shift) % 2 ^ w, pre.length + (varint v).length) := by
  induction v using Nat.strongRecOn generalizing pre k shift acc A with
  | ind v ih =>
    cases k with
    | zero =>
      exfalso
      have hs : shift = 70 := by omega
      subst hs
      have : v ≠ 0 := by omega
      have h1 : 1 * 2 ^ 70 ≤ v * 2 ^ 70 := Nat.mul_le_mul_right _ (by omega)
      have h2 : (2 : Nat) ^ 64 < 2 ^ 70 := by decide
      omega
    | succ k =>
      have step : ∀ x, x < 128 → acc ||| ((x <<< shift) % 2 ^ w) = (A + x * 2 ^ shift) % 2 ^ w := by
        intro x _
        rw [hacc, ← Nat.or_mod_two_pow, Nat.or_comm, ← Nat.shiftLeft_add_eq_or_of_lt hA, Nat.shiftLeft_eq, Nat.add_comm]
      by_cases hb : v ≥ 128
      · have e : varint v = UInt8.ofNat (v % 128 + 128) :: varint (v / 128) := by rw [varint, if_pos hb]
        unfold readVarint
        rw [e, if_neg (by simp)]
        have hget : (pre ++ UInt8.ofNat (v % 128 + 128) :: varint (v / 128) ++ post)[pre.length]? =
            some (UInt8.ofNat (v % 128 + 128)) := by simp
        rw [hget]
        have hto : (UInt8.ofNat (v % 128 + 128)).toNat = v % 128 + 128 := by
          simp only [UInt8.toNat_ofNat']; omega
        have hlt : ¬ UInt8.ofNat (v % 128 + 128) < 128 := by
          rw [UInt8.lt_iff_toNat_lt, hto]
          have : (128 : UInt8).toNat = 128 := rfl
          omega
        simp only [hlt, if_false, hto]
        rw [show (v % 128 + 128) % 128 = v % 128 by omega, step _ (by omega)]
        have hv128 : v = 128 * (v / 128) + v % 128 := by omega
        have hpow : 2 ^ (shift + 7) = 2 ^ shift * 128 := by rw [Nat.pow_add]
        have e1 : v / 128 * 2 ^ (shift + 7) = 128 * (v / 128) * 2 ^ shift := by
          rw [hpow, Nat.mul_comm (2 ^ shift) 128, ← Nat.mul_assoc, Nat.mul_comm (v / 128) 128]
        have e2 : v * 2 ^ shift = 128 * (v / 128) * 2 ^ shift + v % 128 * 2 ^ shift := by
          rw [← Nat.add_mul, ← hv128]
        have hA' : A + v % 128 * 2 ^ shift < 2 ^ (shift + 7) := by
          rw [hpow]
          have : v % 128 * 2 ^ shift ≤ 127 * 2 ^ shift := Nat.mul_le_mul_right _ (by omega)
          omega
        have := ih (v / 128) (by omega) (pre ++ [UInt8.ofNat (v % 128 + 128)]) k (shift + 7)
          ((A + v % 128 * 2 ^ shift) % 2 ^ w) (A + v % 128 * 2 ^ shift) (by omega) (Or.inr (by omega)) (by omega) hA' rfl
        rw [show pre ++ UInt8.ofNat (v % 128 + 128) :: varint (v / 128) ++ post =
          pre ++ [UInt8.ofNat (v % 128 + 128)] ++ varint (v / 128) ++ post by simp]
        simp only [List.length_append, List.length_singleton] at this
        rw [this, e1]
        simp only [List.length_cons, Out.ok.injEq, Prod.mk.injEq]
        refine ⟨?_, by omega⟩
        rw [e2]
        congr 1
        omega
      · have e : varint v = [UInt8.ofNat v] := by rw [varint, if_neg hb]
        unfold readVarint
        rw [e, if_neg (by simp)]
        have hget : (pre ++ [UInt8.ofNat v] ++ post)[pre.length]? = some (UInt8.ofNat v) := by simp
        rw [hget]
        have hto : (UInt8.ofNat v).toNat = v := by simp only [UInt8.toNat_ofNat']; omega
        have hlt : UInt8.ofNat v < 128 := by
          rw [UInt8.lt_iff_toNat_lt, hto]
          have : (128 : UInt8).toNat = 128 := rfl
          omega
        simp only [hlt, if_true, hto]
        rw [Nat.mod_eq_of_lt (show v < 128 by omega), step _ (by omega)]
        simp

theorem readVarint64 {v : Nat} (h : v < 2 ^ 64) (pre post : Str) :
    readVarint 64 (pre ++ varint v ++ post) 10 0 0 pre.length = .ok (v, pre.length + (varint v).length) := by
  rw [readVarint_varint 64 v pre post 10 0 0 0 (by decide) (Or.inl (by decide)) (by simpa using h) (by decide) rfl]
  simp [Nat.mod_eq_of_lt h]

theorem readVarint32 {v : Nat} (h : v < 2 ^ 64) (pre post : Str) :
    readVarint 32 (pre ++ varint v ++ post) 10 0 0 pre.length = .ok (v % 2 ^ 32, pre.length + (varint v).length) := by
  rw [readVarint_varint 32 v pre post 10 0 0 0 (by decide) (Or.inl (by decide)) (by simpa using h) (by decide) rfl]
  simp

theorem slice_append (a s b : Str) : slice (a ++ s ++ b) a.length (a.length + s.length) = .ok s := by
  unfold slice
  rw [if_pos (by simp), List.append_assoc, List.drop_left, Nat.add_sub_cancel_left, List.take_left]

theorem readBytes_append (pre s post : Str) (h : (pre ++ (varint s.length ++ s) ++ post).length < 2 ^ 63) :
    readBytes (pre ++ (varint s.length ++ s) ++ post) pre.length =
      .ok (s, pre.length + (varint s.length ++ s).length) := by
  simp only [List.length_append] at h
  unfold readBytes
  have h1 := readVarint64 (v := s.length) (by omega) pre (s ++ post)
  rw [show pre ++ (varint s.length ++ s) ++ post = pre ++ varint s.length ++ (s ++ post) by simp, h1]
  simp only
  rw [if_neg (by omega), if_neg (by omega), if_neg (by simp; omega)]
  have h2 := slice_append (pre ++ varint s.length) s post
  rw [List.length_append] at h2
  rw [show pre ++ varint s.length ++ (s ++ post) = pre ++ varint s.length ++ s ++ post by simp, h2]
  simp [Nat.add_assoc]

theorem le64_getD (x : UInt64) (pre post : Str) (k : Nat) (hk : k < 8) :
    (pre ++ le64 x ++ post).getD (pre.length + k) 0 = UInt8.ofNat (x.toNat / 256 ^ k) := by
  have : (pre ++ le64 x ++ post)[pre.length + k]? = some (UInt8.ofNat (x.toNat / 256 ^ k)) := by
    rw [List.append_assoc, List.getElem?_append_right (by omega), Nat.add_sub_cancel_left,
      List.getElem?_append_left (by rw [le64_length]; omega)]
    simp [le64, hk]
  rw [List.getD_eq_getElem?_getD, this]
  rfl

theorem digits_eq (n : Nat) (f : Nat → Nat) (k : Nat) (h : ∀ j, j < k → f j = n / 256 ^ j % 256) :
    (List.range k).foldl (fun acc j => acc + f j * 256 ^ j) 0 = n % 256 ^ k := by
  induction k with
  | zero => simp [Nat.mod_one]
  | succ k ih =>
    rw [List.range_succ, List.foldl_append, ih (fun j hj => h j (by omega)), List.foldl_cons, List.foldl_nil,
      h k (by omega), Nat.mod_pow_succ, Nat.mul_comm (256 ^ k)]

theorem readWord_append (x : UInt64) (pre post : Str) :
    readWord (pre ++ le64 x ++ post) pre.length = .ok (x, pre.length + (le64 x).length) := by
  unfold readWord readLe64
  have hl := le64_length x
  rw [if_neg (by simp [hl]), if_pos (by simp [hl])]
  simp only [hl, Out.ok.injEq, Prod.mk.injEq, and_true]
  have hx := x.toNat_lt
  rw [digits_eq x.toNat (fun j => ((pre ++ le64 x ++ post).getD (pre.length + j) 0).toNat) 8]
  · apply UInt64.toNat_inj.1
    rw [UInt64.toNat_ofNat', Nat.mod_eq_of_lt (Nat.lt_of_lt_of_le hx (by decide)), Nat.mod_eq_of_lt hx]
  · intro j hj
    rw [le64_getD x pre post j hj, UInt8.toNat_ofNat']

/-! ### Messages -/

variable {M S : Type} {fields : List (Nat × Handler M)} {unknown : Str → M → M}

/-- Rounds of the decoder's loop. -/
inductive Steps (fields : List (Nat × Handler M)) (unknown : Str → M → M) (d : Str) : Nat → M → Nat → M → Prop
  | refl (i : Nat) (m : M) : Steps fields unknown d i m i m
  | head {i j k : Nat} {m m' m'' : M} : i < d.length → i < j → step fields unknown d i m = .ok (m', j) →
      Steps fields unknown d j m' k m'' → Steps fields unknown d i m k m''

theorem Steps.trans {d : Str} {i j k : Nat} {m m' m'' : M} (h : Steps fields unknown d i m j m')
    (h' : Steps fields unknown d j m' k m'') : Steps fields unknown d i m k m'' := by
  induction h with
  | refl => exact h'
  | head a b c _ ih => exact .head a b c (ih h')

theorem loop_of_steps {d : Str} {i j : Nat} {m m' : M} (h : Steps fields unknown d i m j m') (hj : j = d.length) (k : Nat)
    (hk : d.length ≤ i + k) : loop fields unknown d k i m = .ok m' := by
  induction h generalizing k with
  | refl i m =>
    subst hj
    cases k <;> simp [loop]
  | head a b c _ ih =>
    cases k with
    | zero => omega
    | succ k =>
      unfold loop
      rw [if_pos a, c]
      exact ih hj k (by omega)

/-- Reading `e`, wherever it stands, turns one message into another. -/
def Adv (fields : List (Nat × Handler M)) (unknown : Str → M → M) (e : Str) (m m' : M) : Prop :=
  ∀ pre post : Str, (pre ++ e ++ post).length < 2 ^ 63 →
    Steps fields unknown (pre ++ e ++ post) pre.length m (pre.length + e.length) m'

theorem adv_nil (m : M) : Adv fields unknown [] m m := fun _ _ _ => .refl _ _

theorem adv_append {e e' : Str} {m m' m'' : M} (h : Adv fields unknown e m m') (h' : Adv fields unknown e' m' m'') :
    Adv fields unknown (e ++ e') m m'' := by
  intro pre post hl
  have h1 := h pre (e' ++ post) (by simpa using hl)
  have h2 := h' (pre ++ e) post (by simpa using hl)
  rw [show pre ++ (e ++ e') ++ post = pre ++ e ++ (e' ++ post) by simp,
    show pre.length + (e ++ e').length = pre.length + e.length + e'.length by simp; omega]
  rw [show pre ++ e ++ e' ++ post = pre ++ e ++ (e' ++ post) by simp, List.length_append] at h2
  exact h1.trans h2

/-- The bytes of the tag of a field. -/
def tagOf (num wt : Nat) : Str :=
  if num * 8 + wt < 128 then [UInt8.ofNat (num * 8 + wt)]
  else [UInt8.ofNat ((num * 8 + wt) % 128 + 128), UInt8.ofNat ((num * 8 + wt) / 128)]

theorem tagOf_eq {num wt : Nat} (hn : num < 2000) (hw : wt < 8) : tagOf num wt = varint (num * 8 + wt) := by
  unfold tagOf
  split
  · rw [varint, if_neg (by omega)]
  · rw [varint, if_pos (by omega), varint, if_neg (by omega)]

theorem adv_field {num wt : Nat} {h : Handler M} {r : Str} {m m' : M} (hf : fields.lookup num = some h)
    (hn : 1 ≤ num) (hn' : num < 2000) (hw : wt < 8) (h4 : wt ≠ 4)
    (hr : ∀ pre post : Str, (pre ++ r ++ post).length < 2 ^ 63 →
      h (pre ++ r ++ post) wt pre.length m = .ok (m', pre.length + r.length)) :
    Adv fields unknown (tagOf num wt ++ r) m m' := by
  intro pre post hl
  have ht : tagOf num wt ≠ [] := by unfold tagOf; split <;> simp
  have htl : 0 < (tagOf num wt).length := List.length_pos_iff.2 ht
  refine .head (j := pre.length + (tagOf num wt ++ r).length) ?_ ?_ ?_ (.refl _ _)
  · simp; omega
  · simp; omega
  · unfold step
    have e : pre ++ (tagOf num wt ++ r) ++ post = pre ++ varint (num * 8 + wt) ++ (r ++ post) := by
      rw [tagOf_eq hn' hw]; simp
    rw [e, readVarint64 (by omega)]
    simp only
    rw [show (num * 8 + wt) / 8 % 2 ^ 32 = num by omega, show (num * 8 + wt) % 8 = wt by omega, if_neg h4,
      if_neg (by omega), hf]
    simp only
    rw [← tagOf_eq hn' hw]
    have := hr (pre ++ tagOf num wt) post (by simpa using hl)
    rw [List.length_append] at this
    rw [show pre ++ tagOf num wt ++ (r ++ post) = pre ++ tagOf num wt ++ r ++ post by simp, this]
    simp [Nat.add_assoc]

/-- A part is written, and reading what is written has the given effect. -/
def PartOk (fields : List (Nat × Handler M)) (unknown : Str → M → M) (p : Part) (m m' : M) : Prop :=
  ∃ e, Enc p e ∧ (e.length < 2 ^ 63 → Adv fields unknown e m m')

/-- The same for several parts. -/
def Chain (fields : List (Nat × Handler M)) (unknown : Str → M → M) (ps : List Part) (m m' : M) : Prop :=
  ∃ e, EncAll ps e ∧ (e.length < 2 ^ 63 → Adv fields unknown e m m')

theorem chain_nil (m : M) : Chain fields unknown [] m m := ⟨[], .nil, fun _ => adv_nil m⟩

theorem chain_cons {p : Part} {ps : List Part} {m m' m'' : M} (h : PartOk fields unknown p m m')
    (h' : Chain fields unknown ps m' m'') : Chain fields unknown (p :: ps) m m'' := by
  obtain ⟨e, h1, h2⟩ := h
  obtain ⟨es, h3, h4⟩ := h'
  refine ⟨e ++ es, .cons h1 h3, fun hl => ?_⟩
  rw [List.length_append] at hl
  exact adv_append (h2 (by omega)) (h4 (by omega))

theorem unmarshal_of_adv {e : Str} {m m' : M} (h : Adv fields unknown e m m') (hl : e.length < 2 ^ 63) :
    unmarshal fields unknown m e = .ok m' := by
  have := h [] [] (by simpa using hl)
  simp only [List.nil_append, List.append_nil, List.length_nil, Nat.zero_add] at this
  exact loop_of_steps this rfl _ (by omega)

/-- A message written and read back. -/
theorem roundtrip {ps : List Part} {m m' : M} (h : Chain fields unknown ps m m') (hl : sizeAll ps < 2 ^ 63) :
    ∃ e, marshal ps = some e ∧ e.length = sizeAll ps ∧ unmarshal fields unknown m e = .ok m' := by
  obtain ⟨e, h1, h2⟩ := h
  have hs := encAll_size h1
  rw [hs] at hl
  exact ⟨e, marshal_eq h1, hs.symm, unmarshal_of_adv (h2 hl) hl⟩

/-! The kinds of fields. -/

theorem partOk_bytes {num : Nat} {set : Str → M → M} {tag s : Str} {m : M} (ht : tag = tagOf num 2)
    (hf : fields.lookup num = some (onStr set)) (hn : 1 ≤ num) (hn' : num < 2000) :
    PartOk fields unknown (.bytes tag s) m (set s m) := by
  refine ⟨_, enc_bytes tag s, fun _ => ?_⟩
  rw [List.append_assoc, ht]
  refine adv_field hf hn hn' (by decide) (by decide) ?_
  intro pre post hl
  unfold onStr
  rw [if_neg (by decide), readBytes_append pre s post hl]

theorem partOk_str {num : Nat} {set : Str → M → M} {tag s : Str} {m : M} (ht : tag = tagOf num 2)
    (hf : fields.lookup num = some (onStr set)) (hn : 1 ≤ num) (hn' : num < 2000) (h0 : set [] m = m) :
    PartOk fields unknown (.str tag s) m (set s m) := by
  unfold Part.str
  split
  · exact partOk_bytes ht hf hn hn'
  · rename_i h
    obtain rfl : s = [] := List.length_eq_zero_iff.1 (by omega)
    rw [h0]
    exact ⟨[], enc_nil, fun _ => adv_nil m⟩

theorem partOk_optStr {num : Nat} {set : Option Str → M → M} {tag : Str} {s : Option Str} {m : M} (ht : tag = tagOf num 2)
    (hf : fields.lookup num = some (onStr fun s => set (some s))) (hn : 1 ≤ num) (hn' : num < 2000) (h0 : set none m = m) :
    PartOk fields unknown (.optStr tag s) m (set s m) := by
  cases s with
  | none =>
    rw [h0]
    exact ⟨[], enc_nil, fun _ => adv_nil m⟩
  | some s => exact partOk_bytes (set := fun s => set (some s)) ht hf hn hn'

theorem partOk_word {num : Nat} {set : UInt64 → M → M} {tag : Str} {x : UInt64} {m : M} (ht : tag = tagOf num 1)
    (hf : fields.lookup num = some (onFix set)) (hn : 1 ≤ num) (hn' : num < 2000) :
    PartOk fields unknown (.word tag x) m (set x m) := by
  refine ⟨_, enc_word tag x, fun _ => ?_⟩
  rw [ht]
  refine adv_field hf hn hn' (by decide) (by decide) ?_
  intro pre post hl
  unfold onFix
  rw [if_neg (by decide), readWord_append]

theorem partOk_fix {num : Nat} {set : UInt64 → M → M} {tag : Str} {x : UInt64} {m : M} (ht : tag = tagOf num 1)
    (hf : fields.lookup num = some (onFix set)) (hn : 1 ≤ num) (hn' : num < 2000) (h0 : set 0 m = m) :
    PartOk fields unknown (.fix tag x) m (set x m) := by
  unfold Part.fix
  split
  · exact partOk_word ht hf hn hn'
  · rename_i h
    obtain rfl : x = 0 := by simpa using h
    rw [h0]
    exact ⟨[], enc_nil, fun _ => adv_nil m⟩

theorem partOk_optFix {num : Nat} {set : Option UInt64 → M → M} {tag : Str} {x : Option UInt64} {m : M}
    (ht : tag = tagOf num 1) (hf : fields.lookup num = some (onFix fun s => set (some s))) (hn : 1 ≤ num) (hn' : num < 2000)
    (h0 : set none m = m) : PartOk fields unknown (.optFix tag x) m (set x m) := by
  cases x with
  | none =>
    rw [h0]
    exact ⟨[], enc_nil, fun _ => adv_nil m⟩
  | some s => exact partOk_word (set := fun s => set (some s)) ht hf hn hn'

theorem signExtend_lt (x : UInt32) : signExtend x < 2 ^ 64 := by
  have := x.toNat_lt
  unfold signExtend
  split <;> omega

theorem signExtend_mod (x : UInt32) : signExtend x % 2 ^ 32 = x.toNat := by
  have := x.toNat_lt
  unfold signExtend
  split <;> omega

theorem partOk_enum {num : Nat} {set : UInt32 → M → M} {tag : Str} {x : UInt32} {m : M} (ht : tag = tagOf num 0)
    (hf : fields.lookup num = some (onEnum set)) (hn : 1 ≤ num) (hn' : num < 2000) (h0 : set 0 m = m) :
    PartOk fields unknown (.enum tag x) m (set x m) := by
  unfold Part.enum
  split
  · refine ⟨_, enc_varint tag _, fun _ => ?_⟩
    rw [ht]
    refine adv_field hf hn hn' (by decide) (by decide) ?_
    intro pre post hl
    unfold onEnum
    rw [if_neg (by decide), readVarint32 (signExtend_lt x), signExtend_mod]
    simp
  · rename_i h
    obtain rfl : x = 0 := by simpa using h
    rw [h0]
    exact ⟨[], enc_nil, fun _ => adv_nil m⟩

theorem partOk_optVarint {num : Nat} {set : Option UInt64 → M → M} {tag : Str} {x : Option UInt64} {m : M}
    (ht : tag = tagOf num 0) (hf : fields.lookup num = some (onVarint fun s => set (some s))) (hn : 1 ≤ num)
    (hn' : num < 2000) (h0 : set none m = m) : PartOk fields unknown (.optVarint tag x) m (set x m) := by
  cases x with
  | none =>
    rw [h0]
    exact ⟨[], enc_nil, fun _ => adv_nil m⟩
  | some x =>
    refine ⟨_, enc_varint tag _, fun _ => ?_⟩
    rw [ht]
    refine adv_field hf hn hn' (by decide) (by decide) ?_
    intro pre post hl
    unfold onVarint
    rw [if_neg (by decide), readVarint64 x.toNat_lt]
    simp

theorem varint_one : varint 1 = [1] := by rw [varint, if_neg (by decide)]; rfl

theorem partOk_bool {num : Nat} {set : Bool → M → M} {tag : Str} {x : Bool} {m : M} (ht : tag = tagOf num 0)
    (hf : fields.lookup num = some (onBool set)) (hn : 1 ≤ num) (hn' : num < 2000) (h0 : set false m = m) :
    PartOk fields unknown (.bool tag x) m (set x m) := by
  cases x with
  | false =>
    rw [h0]
    exact ⟨[], enc_nil, fun _ => adv_nil m⟩
  | true =>
    refine ⟨tag ++ varint 1, ⟨?_, ?_⟩, fun _ => ?_⟩
    · simp [Part.bool, varint_one]
    · rw [varint_one]
      exact writes_then (writes_byte 1) (writes_tag tag)
    · rw [ht]
      refine adv_field hf hn hn' (by decide) (by decide) ?_
      intro pre post hl
      unfold onBool
      rw [if_neg (by decide), readVarint64 (by decide)]
      simp

theorem partOk_msg {num : Nat} {get : M → S} {set : S → M → M} {dec : S → Str → Out S} {tag : Str} {ps : List Part} {x : S}
    {m : M} (ht : tag = tagOf num 2) (hf : fields.lookup num = some (onMsg get set dec)) (hn : 1 ≤ num) (hn' : num < 2000)
    (hsub : ∃ e, EncAll ps e ∧ (e.length < 2 ^ 63 → dec (get m) e = .ok x)) :
    PartOk fields unknown (.msg tag ps) m (set x m) := by
  obtain ⟨e, he, hd⟩ := hsub
  refine ⟨_, enc_msg tag he, fun hlen => ?_⟩
  rw [List.append_assoc, ht]
  refine adv_field hf hn hn' (by decide) (by decide) ?_
  intro pre post hl
  unfold onMsg
  rw [if_neg (by decide), readBytes_append pre e post hl]
  simp only
  rw [hd (by simp at hlen; omega)]

theorem dec_of_chain {ps : List Part} {m m' : M} (h : Chain fields unknown ps m m') :
    ∃ e, EncAll ps e ∧ (e.length < 2 ^ 63 → unmarshal fields unknown m e = .ok m') := by
  obtain ⟨e, h1, h2⟩ := h
  exact ⟨e, h1, fun hl => unmarshal_of_adv (h2 hl) hl⟩

theorem partOk_optMsg {num : Nat} {get : M → S} {set : Option S → M → M} {dec : S → Str → Out S} {tag : Str}
    {parts : S → List Part} {x : Option S} {m : M} (ht : tag = tagOf num 2)
    (hf : fields.lookup num = some (onMsg get (fun s => set (some s)) dec)) (hn : 1 ≤ num) (hn' : num < 2000)
    (h0 : set none m = m)
    (hsub : ∀ s, x = some s → ∃ e, EncAll (parts s) e ∧ (e.length < 2 ^ 63 → dec (get m) e = .ok s)) :
    PartOk fields unknown (.optMsg tag (x.map parts)) m (set x m) := by
  cases x with
  | none =>
    rw [h0]
    exact ⟨[], enc_nil, fun _ => adv_nil m⟩
  | some s => exact partOk_msg (set := fun s => set (some s)) ht hf hn hn' (hsub s rfl)

/-- A repeated field: one part per element, each appended. -/
theorem partOk_rep {α : Type} {part : α → Part} {app : α → M → M} {l : List α} {m : M}
    (h : ∀ a ∈ l, ∀ m, PartOk fields unknown (part a) m (app a m)) :
    PartOk fields unknown (.all (l.map part)) m (l.foldl (fun m a => app a m) m) := by
  have : ∀ m, Chain fields unknown (l.map part) m (l.foldl (fun m a => app a m) m) := by
    induction l with
    | nil => exact fun m => chain_nil m
    | cons a l ih =>
      intro m
      exact chain_cons (h a (by simp) m) (ih (fun b hb => h b (by simp [hb])) _)
  obtain ⟨e, h1, h2⟩ := this m
  exact ⟨e, enc_all h1, h2⟩

theorem foldl_app {α : Type} {get : M → List α} {set : List α → M → M} (h1 : ∀ x m, get (set x m) = x)
    (h2 : ∀ x y m, set x (set y m) = set x m) (h3 : ∀ m, set (get m) m = m) (l : List α) (m : M) :
    l.foldl (fun m a => set (get m ++ [a]) m) m = set (get m ++ l) m := by
  induction l generalizing m with
  | nil => simp [h3]
  | cons a l ih => rw [List.foldl_cons, ih, h1, h2]; simp

theorem partOk_repStr {num : Nat} {get : M → List Str} {set : List Str → M → M} {tag : Str} {l : List Str} {m : M}
    (ht : tag = tagOf num 2) (hf : fields.lookup num = some (onStr fun s m => set (get m ++ [s]) m)) (hn : 1 ≤ num)
    (hn' : num < 2000) (h1 : ∀ x m, get (set x m) = x) (h2 : ∀ x y m, set x (set y m) = set x m)
    (h3 : ∀ m, set (get m) m = m) (h0 : get m = []) :
    PartOk fields unknown (.all (l.map (.bytes tag))) m (set l m) := by
  have := partOk_rep (part := .bytes tag) (app := fun a m => set (get m ++ [a]) m) (l := l) (m := m)
    (fun a _ m => partOk_bytes (fields := fields) (unknown := unknown) (s := a) (m := m) ht hf hn hn')
  rwa [foldl_app h1 h2 h3, h0, List.nil_append] at this

theorem partOk_repMsg {num : Nat} {new : S} {get : M → List S} {set : List S → M → M} {dec : S → Str → Out S} {tag : Str}
    {parts : S → List Part} {l : List S} {m : M} (ht : tag = tagOf num 2)
    (hf : fields.lookup num = some (onMsg (fun _ => new) (fun s m => set (get m ++ [s]) m) dec)) (hn : 1 ≤ num)
    (hn' : num < 2000) (h1 : ∀ x m, get (set x m) = x) (h2 : ∀ x y m, set x (set y m) = set x m)
    (h3 : ∀ m, set (get m) m = m) (h0 : get m = [])
    (hsub : ∀ s ∈ l, ∃ e, EncAll (parts s) e ∧ (e.length < 2 ^ 63 → dec new e = .ok s)) :
    PartOk fields unknown (.all (l.map fun x => .msg tag (parts x))) m (set l m) := by
  have := partOk_rep (part := fun x => .msg tag (parts x)) (app := fun a m => set (get m ++ [a]) m) (l := l) (m := m)
    (fun a ha m => partOk_msg (fields := fields) (unknown := unknown) (get := fun _ => new) (dec := dec)
      (set := fun s m => set (get m ++ [s]) m) (x := a) (m := m) ht hf hn hn' (hsub a ha))
  rwa [foldl_app h1 h2 h3, h0, List.nil_append] at this

end Verif.Wire
