import Verif.Spec.Schema
import Verif.Proofs.Proto
import Verif.Proofs.WireMerge

/-! Decoders and the fields they know. -/
namespace Verif.Props
open Verif.Spec.Proto Verif.Wire
open Verif.Jose (Out)

variable {M S : Type}

/-- A handler takes this wire type only. -/
def Typed (w : Nat) (h : Handler M) : Prop := ∀ d wt i m, wt ≠ w → h d wt i m = .err

theorem typed_str (set : Str → M → M) : Typed 2 (onStr set) := fun _ _ _ _ h => by unfold onStr; rw [if_pos h]
theorem typed_fix (set : UInt64 → M → M) : Typed 1 (onFix set) := fun _ _ _ _ h => by unfold onFix; rw [if_pos h]
theorem typed_enum (set : UInt32 → M → M) : Typed 0 (onEnum set) := fun _ _ _ _ h => by unfold onEnum; rw [if_pos h]
theorem typed_varint (set : UInt64 → M → M) : Typed 0 (onVarint set) := fun _ _ _ _ h => by unfold onVarint; rw [if_pos h]
theorem typed_bool (set : Bool → M → M) : Typed 0 (onBool set) := fun _ _ _ _ h => by unfold onBool; rw [if_pos h]
theorem typed_msg (get : M → S) (set : S → M → M) (dec : S → Str → Out S) : Typed 2 (onMsg get set dec) := fun _ _ _ _ h => by
  unfold onMsg; rw [if_pos h]
theorem typed_map (get : M → List (Str × Str)) (set : List (Str × Str) → M → M) : Typed 2 (onMap get set) := fun _ _ _ _ h => by
  unfold onMap; rw [if_pos h]

/-- The handlers of a decoder are those of the schema. -/
inductive FieldsFit : Schema → List (Nat × Handler M) → Prop
  | nil : FieldsFit [] []
  | cons {s : Nat × FieldType} {f : Nat × Handler M} {ss : Schema} {fs : List (Nat × Handler M)} :
    s.1 = f.1 ∧ Typed s.2.wireType f.2 → FieldsFit ss fs → FieldsFit (s :: ss) (f :: fs)

theorem FieldsFit.keys {schema : Schema} {fields : List (Nat × Handler M)} (h : FieldsFit schema fields) : fields.map Prod.fst = schema.map Prod.fst := by
  induction h with
  | nil => rfl
  | cons h _ ih => rw [List.map_cons, List.map_cons, ih, h.1]

theorem FieldsFit.known {schema : Schema} {fields : List (Nat × Handler M)} (h : FieldsFit schema fields) {n : Nat} {t : FieldType} (hm : (n, t) ∈ schema)
    (hd : (schema.map Prod.fst).Nodup) : ∃ f, fields.lookup n = some f ∧ Typed t.wireType f := by
  induction h with
  | nil => simp at hm
  | @cons s f ss fs h _ ih =>
    obtain ⟨k, g⟩ := f
    rw [List.lookup_cons]
    rw [List.map_cons, List.nodup_cons] at hd
    rcases List.mem_cons.mp hm with e | hm
    · subst e
      have hk : n = k := h.1
      subst hk
      simp only [BEq.rfl]
      exact ⟨g, rfl, h.2⟩
    · have hk : s.1 = k := h.1
      have hne : n ≠ k := fun e => hd.1 (List.mem_map.mpr ⟨_, hm, by rw [hk]; exact e⟩)
      rw [show (n == k) = false from by simpa using hne]
      exact ih hm hd.2

theorem FieldsFit.any {schema : Schema} {fields : List (Nat × Handler M)} (h : FieldsFit schema fields) {n : Nat} {f : Handler M}
    (hl : fields.lookup n = some f) : ∃ t, Typed (FieldType.wireType t) f := by
  induction h with
  | nil => simp at hl
  | @cons s p ss fs h _ ih =>
    obtain ⟨k, g⟩ := p
    rw [List.lookup_cons] at hl
    by_cases e : n = k
    · subst e
      simp only [BEq.rfl] at hl
      cases hl
      exact ⟨s.2, h.2⟩
    · rw [show (n == k) = false from by simpa using e] at hl
      exact ih hl

theorem wireType_lt (t : FieldType) : t.wireType < 4 := by cases t <;> decide

section
variable {fields : List (Nat × Handler M)} {keep : Str → M → M}

theorem step_tag {n w : Nat} (hn : n < 2 ^ 31) (hw : w < 8) (rest : Str) (m : M) :
    step fields keep (base128 (n * 8 + w) ++ rest) 0 m =
      if w = 4 then .err else if n = 0 then .err else match fields.lookup n with
        | some h => h (base128 (n * 8 + w) ++ rest) w (base128 (n * 8 + w)).length m
        | none => match skip (base128 (n * 8 + w) ++ rest) 0 with
          | .err => .err
          | .panic => .panic
          | .ok k =>
            if 0 + k ≥ 2 ^ 63 then .err
            else if 0 + k > (base128 (n * 8 + w) ++ rest).length then .err
            else match slice (base128 (n * 8 + w) ++ rest) 0 (0 + k) with
              | .err => .err
              | .panic => .panic
              | .ok u => .ok (keep u m, 0 + k) := by
  have hr := readVarint64 (v := n * 8 + w) (by omega) [] rest
  simp only [List.nil_append, List.length_nil, Nat.zero_add] at hr
  unfold step
  rw [base128_eq, hr]
  simp only
  rw [show (n * 8 + w) / 8 % 2 ^ 32 = n by omega, show (n * 8 + w) % 8 = w by omega]
  by_cases h4 : w = 4
  · rw [if_pos h4, if_pos h4]
  · rw [if_neg h4, if_neg h4]
    by_cases h0 : n = 0
    · rw [if_pos (Or.inl h0), if_pos h0]
    · rw [if_neg (by omega), if_neg h0]
      cases fields.lookup n <;> rfl

theorem unmarshal_err {d : Str} (h0 : d ≠ []) {m : M} (h : step fields keep d 0 m = .err) : unmarshal fields keep m d = .err := by
  unfold unmarshal
  cases d with
  | nil => exact absurd rfl h0
  | cons b r =>
    rw [List.length_cons, loop, if_pos (by simp), h]

theorem tag_ne_nil (v : Nat) (rest : Str) : base128 v ++ rest ≠ [] := by
  rw [base128_eq]
  intro h
  exact varint_ne_nil v (List.append_eq_nil_iff.mp h).1

theorem refused_type {schema : Schema} (hf : FieldsFit schema fields) (hd : (schema.map Prod.fst).Nodup) {n : Nat} {t : FieldType} {w : Nat}
    (hb : ∀ n ∈ schema.map Prod.fst, 1 ≤ n ∧ n < 2000) (hm : (n, t) ∈ schema) (hw : w < 8) (hne : w ≠ t.wireType) (rest : Str) (m : M) :
    unmarshal fields keep m (base128 (n * 8 + w) ++ rest) = .err := by
  obtain ⟨f, hl, ht⟩ := hf.known hm hd
  have hn := hb n (List.mem_map.mpr ⟨_, hm, rfl⟩)
  refine unmarshal_err (tag_ne_nil _ _) ?_
  rw [step_tag (by omega) hw, hl]
  by_cases h4 : w = 4
  · rw [if_pos h4]
  · rw [if_neg h4, if_neg (by omega)]
    exact ht _ _ _ _ hne

theorem skip_kind {n w : Nat} (hn : n < 2 ^ 31) (hw : w < 8) (rest : Str) (h : w = 6 ∨ w = 7) : skip (base128 (n * 8 + w) ++ rest) 0 = .err := by
  have hr := readVarint64 (v := n * 8 + w) (by omega) [] rest
  simp only [List.nil_append, List.length_nil, Nat.zero_add] at hr
  unfold skip
  rw [List.drop_zero, skipLoop_succ, if_neg (by have := tag_ne_nil (n * 8 + w) rest; have := List.length_pos_iff.mpr this; omega), base128_eq, hr]
  simp only
  rw [show (n * 8 + w) % 8 = w by omega]
  rcases h with rfl | rfl <;> rfl

theorem refused_kind {schema : Schema} (hf : FieldsFit schema fields) {n w : Nat} (hn : n < 2 ^ 31) (hw : w < 8)
    (h : n = 0 ∨ w = 4 ∨ w = 6 ∨ w = 7) (rest : Str) (m : M) : unmarshal fields keep m (base128 (n * 8 + w) ++ rest) = .err := by
  refine unmarshal_err (tag_ne_nil _ _) ?_
  rw [step_tag hn hw]
  by_cases h4 : w = 4
  · rw [if_pos h4]
  · rw [if_neg h4]
    by_cases h0 : n = 0
    · rw [if_pos h0]
    · rw [if_neg h0]
      have h67 : w = 6 ∨ w = 7 := by omega
      cases hl : fields.lookup n with
      | some f =>
        obtain ⟨t, ht⟩ := hf.any hl
        exact ht _ _ _ _ (by have := wireType_lt t; omega)
      | none => simp only; rw [skip_kind hn hw rest h67]

theorem skip_payload {n w : Nat} (hn : n < 2 ^ 31) {p : Str} (hp : Payload w p) (hl : (base128 (n * 8 + w) ++ p).length < 2 ^ 63) :
    skip (base128 (n * 8 + w) ++ p) 0 = .ok (base128 (n * 8 + w) ++ p).length := by
  have hw : w < 8 := by rcases hp with h | h | h | h <;> omega
  have hr := readVarint64 (v := n * 8 + w) (by omega) [] p
  simp only [List.nil_append, List.length_nil, Nat.zero_add] at hr
  rw [base128_eq] at hl ⊢
  have hnext : skipNext (varint (n * 8 + w) ++ p) w 0 (varint (n * 8 + w)).length = .ok (0, (varint (n * 8 + w) ++ p).length) := by
    rcases hp with ⟨rfl, v, hv, rfl⟩ | ⟨rfl, h8⟩ | ⟨rfl, s, rfl⟩ | ⟨rfl, h4⟩
    · have := readVarint64 hv (varint (n * 8 + 0)) []
      rw [List.append_nil] at this
      simp only [skipNext, base128_eq, this, List.length_append]
    · simp only [skipNext, List.length_append, h8]
    · rw [base128_eq] at hl ⊢
      rw [List.length_append, List.length_append] at hl
      have := readVarint64 (v := s.length) (by omega) (varint (n * 8 + 2)) s
      simp only [skipNext]
      rw [← List.append_assoc, this]
      simp only
      rw [if_neg (by omega)]
      simp [Nat.add_assoc]
    · simp only [skipNext, List.length_append, h4]
  unfold skip
  rw [List.drop_zero, skipLoop_succ, if_neg (by have := tag_ne_nil (n * 8 + w) p; rw [base128_eq] at this; have := List.length_pos_iff.mpr this; omega), hr]
  simp only
  rw [show (n * 8 + w) % 8 = w by omega, hnext]
  simp only
  rw [if_neg (by omega), if_pos trivial]

theorem kept {schema : Schema} (hf : FieldsFit schema fields) {n w : Nat} (h1 : 1 ≤ n) (hn : n < 2 ^ 31) (hu : n ∉ schema.map Prod.fst) {p : Str}
    (hp : Payload w p) (hl : (base128 (n * 8 + w) ++ p).length < 2 ^ 63) (m : M) :
    unmarshal fields keep m (base128 (n * 8 + w) ++ p) = .ok (keep (base128 (n * 8 + w) ++ p) m) := by
  have hw : w < 8 ∧ w ≠ 4 := by rcases hp with h | h | h | h <;> omega
  have hlk : fields.lookup n = none := lookup_none.2 (by rw [hf.keys]; exact hu)
  have hs : step fields keep (base128 (n * 8 + w) ++ p) 0 m =
      .ok (keep (base128 (n * 8 + w) ++ p) m, (base128 (n * 8 + w) ++ p).length) := by
    have hsl := slice_append [] (base128 (n * 8 + w) ++ p) []
    simp only [List.nil_append, List.append_nil, List.length_nil, Nat.zero_add] at hsl
    rw [step_tag hn hw.1, if_neg hw.2, if_neg (by omega), hlk]
    simp only
    rw [skip_payload hn hp hl]
    simp only [Nat.zero_add]
    rw [if_neg (by omega), if_neg (by omega), hsl]
  have hpos := List.length_pos_iff.mpr (tag_ne_nil (n * 8 + w) p)
  exact loop_of_steps (.head hpos hpos hs (.refl _ _)) rfl _ (by omega)

end

theorem respects_of {schema : Schema} {u : M → Str → Out M} {keep : Str → M → M}
    (hm : ∀ (m m' : M) (a b : Str), (a ++ b).length < 2 ^ 63 → u m a = .ok m' → u m (a ++ b) = u m' b)
    (hd : (schema.map Prod.fst).Nodup) (hb : ∀ n ∈ schema.map Prod.fst, 1 ≤ n ∧ n < 2000) (fields : Str → List (Nat × Handler M)) (he : ∀ m d, u m d = unmarshal (fields d) keep m d)
    (hf : ∀ d, FieldsFit schema (fields d)) : Respects schema u keep where
  wrong m m' a rest n t w ha hl hmem hw hne := by
    rw [List.append_assoc] at hl ⊢
    rw [hm _ _ _ _ hl ha, he]
    exact refused_type (hf _) hd hb hmem hw hne _ _
  unknown m m' a p n w ha hl h1 hn hu hp := by
    rw [List.append_assoc] at hl ⊢
    rw [hm _ _ _ _ hl ha, he]
    exact kept (hf _) h1 (by omega) hu hp (by rw [List.length_append] at hl; omega) _
  illegal m m' a rest n w ha hl hn hw h := by
    rw [List.append_assoc] at hl ⊢
    rw [hm _ _ _ _ hl ha, he]
    exact refused_kind (hf _) (by omega) hw h _ _

section
variable {n : Nat} {ss : Schema} {fs : List (Nat × Handler M)}

theorem fits_string {set : Str → M → M} (h : FieldsFit ss fs) : FieldsFit ((n, .string) :: ss) ((n, onStr set) :: fs) := .cons ⟨rfl, typed_str set⟩ h
theorem fits_bytes {set : Str → M → M} (h : FieldsFit ss fs) : FieldsFit ((n, .bytes) :: ss) ((n, onStr set) :: fs) := .cons ⟨rfl, typed_str set⟩ h
theorem fits_fixed64 {set : UInt64 → M → M} (h : FieldsFit ss fs) : FieldsFit ((n, .fixed64) :: ss) ((n, onFix set) :: fs) := .cons ⟨rfl, typed_fix set⟩ h
theorem fits_uint64 {set : UInt64 → M → M} (h : FieldsFit ss fs) : FieldsFit ((n, .uint64) :: ss) ((n, onVarint set) :: fs) := .cons ⟨rfl, typed_varint set⟩ h
theorem fits_enum {set : UInt32 → M → M} (h : FieldsFit ss fs) : FieldsFit ((n, .enum) :: ss) ((n, onEnum set) :: fs) := .cons ⟨rfl, typed_enum set⟩ h
theorem fits_bool {set : Bool → M → M} (h : FieldsFit ss fs) : FieldsFit ((n, .bool) :: ss) ((n, onBool set) :: fs) := .cons ⟨rfl, typed_bool set⟩ h
theorem fits_message {get : M → S} {set : S → M → M} {dec : S → Str → Out S} (h : FieldsFit ss fs) :
    FieldsFit ((n, .message) :: ss) ((n, onMsg get set dec) :: fs) := .cons ⟨rfl, typed_msg get set dec⟩ h
theorem fits_map {get : M → List (Str × Str)} {set : List (Str × Str) → M → M} (h : FieldsFit ss fs) :
    FieldsFit ((n, .map) :: ss) ((n, onMap get set) :: fs) := .cons ⟨rfl, typed_map get set⟩ h

end

end Verif.Props
