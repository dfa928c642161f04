import Verif.Proofs.Wire

/-! The decoder of the binary codec on any input: it never crashes, its loops end, and
what it keeps of unknown fields are records that it keeps again. -/
namespace Verif.Wire
open Verif.Jose (Out)

/-- The `n` bytes from `i'` of `d'` are those from `i` of `d`. -/
def Agree (d : Str) (i : Nat) (d' : Str) (i' n : Nat) : Prop := ∀ t, t < n → d'[i' + t]? = d[i + t]?

theorem Agree.sub {d d' : Str} {i i' n : Nat} (h : Agree d i d' i' n) (a b : Nat) (hb : a + b ≤ n) :
    Agree d (i + a) d' (i' + a) b := by
  intro t ht
  have := h (a + t) (by omega)
  rwa [← Nat.add_assoc, ← Nat.add_assoc] at this

theorem readVarint_ne_panic (w : Nat) (d : Str) (k shift acc i : Nat) : readVarint w d k shift acc i ≠ .panic := by
  induction k generalizing shift acc i with
  | zero => simp [readVarint]
  | succ k ih =>
    unfold readVarint
    split
    · simp
    · rename_i h
      rw [List.getElem?_eq_getElem (by omega)]
      simp only
      split
      · simp
      · exact ih _ _ _

theorem readVarint_ok {w : Nat} {d : Str} {k shift acc i v j : Nat} (h : readVarint w d k shift acc i = .ok (v, j)) :
    i < j ∧ j ≤ d.length ∧ ∀ (d' : Str) (i' : Nat), Agree d i d' i' (j - i) →
      readVarint w d' k shift acc i' = .ok (v, i' + (j - i)) := by
  induction k generalizing shift acc i with
  | zero => simp [readVarint] at h
  | succ k ih =>
    unfold readVarint at h
    split at h
    · simp at h
    · rename_i hi
      have hi : i < d.length := by omega
      rw [List.getElem?_eq_getElem hi] at h
      simp only at h
      split at h
      · rename_i hb
        simp only [Out.ok.injEq, Prod.mk.injEq] at h
        obtain ⟨rfl, rfl⟩ := h
        refine ⟨by omega, hi, fun d' i' ha => ?_⟩
        have h0 := ha 0 (by omega)
        rw [Nat.add_zero, Nat.add_zero, List.getElem?_eq_getElem hi] at h0
        have hi' : i' < d'.length := (List.getElem?_eq_some_iff.1 h0).1
        unfold readVarint
        rw [if_neg (by omega), h0]
        simp only
        rw [if_pos hb, Nat.add_sub_cancel_left]
      · rename_i hb
        obtain ⟨h1, h2, h3⟩ := ih h
        refine ⟨by omega, h2, fun d' i' ha => ?_⟩
        have h0 := ha 0 (by omega)
        rw [Nat.add_zero, Nat.add_zero, List.getElem?_eq_getElem hi] at h0
        have hi' : i' < d'.length := (List.getElem?_eq_some_iff.1 h0).1
        unfold readVarint
        rw [if_neg (by omega), h0]
        simp only
        rw [if_neg hb, h3 d' (i' + 1) (ha.sub 1 _ (by omega))]
        simp only [Out.ok.injEq, Prod.mk.injEq, true_and]
        omega

theorem readBytes_ne_panic (d : Str) (i : Nat) : readBytes d i ≠ .panic := by
  unfold readBytes
  split
  · simp
  · rename_i h; exact absurd h (readVarint_ne_panic _ _ _ _ _ _)
  · split
    · simp
    · split
      · simp
      · split
        · simp
        · unfold slice
          rw [if_pos (by omega)]
          simp

theorem readBytes_ok {d : Str} {i : Nat} {s : Str} {j : Nat} (h : readBytes d i = .ok (s, j)) :
    i < j ∧ j ≤ d.length ∧ s.length < j - i := by
  unfold readBytes at h
  split at h
  · simp at h
  · simp at h
  · rename_i n i1 hv
    have h1 := readVarint_ok hv
    split at h
    · simp at h
    · split at h
      · simp at h
      · split at h
        · simp at h
        · unfold slice at h
          rw [if_pos (by omega)] at h
          simp only [Out.ok.injEq, Prod.mk.injEq] at h
          obtain ⟨rfl, rfl⟩ := h
          refine ⟨by omega, by omega, ?_⟩
          simp
          omega

theorem readWord_ne_panic (d : Str) (i : Nat) : readWord d i ≠ .panic := by
  unfold readWord readLe64
  split
  · simp
  · rw [if_pos (by omega)]
    simp

theorem readWord_ok {d : Str} {i : Nat} {x : UInt64} {j : Nat} (h : readWord d i = .ok (x, j)) : j = i + 8 := by
  unfold readWord readLe64 at h
  split at h
  · simp at h
  · rw [if_pos (by omega)] at h
    simp only [Out.ok.injEq, Prod.mk.injEq] at h
    exact h.2.symm

/-! ### Skipping -/

/-- What a round of `skip` does after the tag (the `match` of `skipLoop`). -/
def skipNext (d : Str) (wt depth i : Nat) : Out (Nat × Nat) :=
  match wt with
  | 0 => match readVarint 64 d 10 0 0 i with
    | .err => .err
    | .panic => .panic
    | .ok (_, i) => .ok (depth, i)
  | 1 => .ok (depth, i + 8)
  | 2 => match readVarint 64 d 10 0 0 i with
    | .err => .err
    | .panic => .panic
    | .ok (n, i) => if n ≥ 2 ^ 63 then .err else .ok (depth, i + n)
  | 3 => .ok (depth + 1, i)
  | 4 => if depth = 0 then .err else .ok (depth - 1, i)
  | 5 => .ok (depth, i + 4)
  | _ => .err

theorem skipLoop_succ (d : Str) (k depth i : Nat) : skipLoop d (k + 1) depth i =
    if i ≥ d.length then .err
    else match readVarint 64 d 10 0 0 i with
      | .err => .err
      | .panic => .panic
      | .ok (wire, i) =>
        match skipNext d (wire % 8) depth i with
        | .err => .err
        | .panic => .panic
        | .ok (depth, i) =>
          if i ≥ 2 ^ 63 then .err
          else if depth = 0 then .ok i
          else skipLoop d k depth i := rfl

theorem skipNext_ne_panic (d : Str) (wt depth i : Nat) : skipNext d wt depth i ≠ .panic := by
  unfold skipNext
  split
  · split
    · simp
    · rename_i h; exact absurd h (readVarint_ne_panic _ _ _ _ _ _)
    · simp
  · simp
  · split
    · simp
    · rename_i h; exact absurd h (readVarint_ne_panic _ _ _ _ _ _)
    · split <;> simp
  · simp
  · split <;> simp
  · simp
  · simp

theorem skipNext_ok {d : Str} {wt depth i depth' j : Nat} (h : skipNext d wt depth i = .ok (depth', j)) :
    i ≤ j ∧ ∀ (d' : Str) (i' : Nat), Agree d i d' i' (j - i) → skipNext d' wt depth i' = .ok (depth', i' + (j - i)) := by
  unfold skipNext at h
  split at h
  · split at h
    · simp at h
    · simp at h
    · rename_i v i1 hv
      simp only [Out.ok.injEq, Prod.mk.injEq] at h
      obtain ⟨rfl, rfl⟩ := h
      obtain ⟨h1, h2, h3⟩ := readVarint_ok hv
      refine ⟨by omega, fun d' i' ha => ?_⟩
      simp only [skipNext, h3 d' i' ha]
  · simp only [Out.ok.injEq, Prod.mk.injEq] at h
    obtain ⟨rfl, rfl⟩ := h
    exact ⟨by omega, fun d' i' _ => by simp [skipNext]⟩
  · split at h
    · simp at h
    · simp at h
    · rename_i n i1 hv
      obtain ⟨h1, h2, h3⟩ := readVarint_ok hv
      split at h
      · simp at h
      · rename_i hn
        simp only [Out.ok.injEq, Prod.mk.injEq] at h
        obtain ⟨rfl, rfl⟩ := h
        refine ⟨by omega, fun d' i' ha => ?_⟩
        have := h3 d' i' (ha.sub 0 _ (by omega))
        simp only [skipNext, this, if_neg hn, Out.ok.injEq, Prod.mk.injEq, true_and]
        omega
  · simp only [Out.ok.injEq, Prod.mk.injEq] at h
    obtain ⟨rfl, rfl⟩ := h
    exact ⟨by omega, fun d' i' _ => by simp [skipNext]⟩
  · split at h
    · simp at h
    · rename_i hd
      simp only [Out.ok.injEq, Prod.mk.injEq] at h
      obtain ⟨rfl, rfl⟩ := h
      exact ⟨by omega, fun d' i' _ => by simp [skipNext, hd]⟩
  · simp only [Out.ok.injEq, Prod.mk.injEq] at h
    obtain ⟨rfl, rfl⟩ := h
    exact ⟨by omega, fun d' i' _ => by simp [skipNext]⟩
  · simp at h

theorem skipLoop_ne_panic (d : Str) (k depth i : Nat) : skipLoop d k depth i ≠ .panic := by
  induction k generalizing depth i with
  | zero => simp [skipLoop]
  | succ k ih =>
    rw [skipLoop_succ]
    split
    · simp
    · split
      · simp
      · rename_i h; exact absurd h (readVarint_ne_panic _ _ _ _ _ _)
      · split
        · simp
        · rename_i h; exact absurd h (skipNext_ne_panic _ _ _ _)
        · split
          · simp
          · split
            · simp
            · exact ih _ _

theorem skipLoop_ok {d : Str} {k depth i j : Nat} (h : skipLoop d k depth i = .ok j) :
    i < j ∧ (∃ wire i1, readVarint 64 d 10 0 0 i = .ok (wire, i1) ∧ i1 ≤ j) ∧ (j ≤ d.length →
      ∀ (d' : Str) (i' k' : Nat), Agree d i d' i' (j - i) → i' + (j - i) < 2 ^ 63 → i' + (j - i) ≤ d'.length → j - i ≤ k' →
        skipLoop d' k' depth i' = .ok (i' + (j - i))) := by
  induction k generalizing depth i with
  | zero => simp [skipLoop] at h
  | succ k ih =>
    rw [skipLoop_succ] at h
    split at h
    · simp at h
    · rename_i hi
      split at h
      · simp at h
      · simp at h
      · rename_i wire i1 hv
        obtain ⟨h1, h2, h3⟩ := readVarint_ok hv
        split at h
        · simp at h
        · simp at h
        · rename_i depth2 i2 hs
          obtain ⟨g1, g2⟩ := skipNext_ok hs
          split at h
          · simp at h
          · split at h
            · rename_i h63 hd
              simp only [Out.ok.injEq] at h
              subst h
              refine ⟨by omega, ⟨wire, i1, hv, g1⟩, fun hj d' i' k' ha hl hl' hk => ?_⟩
              obtain ⟨k'', rfl⟩ : ∃ k'', k' = k'' + 1 := ⟨k' - 1, by omega⟩
              rw [skipLoop_succ, if_neg (by omega), h3 d' i' (ha.sub 0 _ (by omega))]
              simp only
              have := g2 d' (i' + (i1 - i)) (by
                have := ha.sub (i1 - i) (i2 - i1) (by omega)
                rwa [show i + (i1 - i) = i1 by omega] at this)
              rw [this]
              simp only
              rw [if_neg (by omega), if_pos hd]
              simp only [Out.ok.injEq]
              omega
            · rename_i h63 hd
              obtain ⟨f1, ⟨w', i3, f2, f3⟩, f4⟩ := ih h
              have hi3 := readVarint_ok f2
              refine ⟨by omega, ⟨wire, i1, hv, by omega⟩, fun hj d' i' k' ha hl hl' hk => ?_⟩
              obtain ⟨k'', rfl⟩ : ∃ k'', k' = k'' + 1 := ⟨k' - 1, by omega⟩
              rw [skipLoop_succ, if_neg (by omega), h3 d' i' (ha.sub 0 _ (by omega))]
              simp only
              have := g2 d' (i' + (i1 - i)) (by
                have := ha.sub (i1 - i) (i2 - i1) (by omega)
                rwa [show i + (i1 - i) = i1 by omega] at this)
              rw [this]
              simp only
              rw [if_neg (by omega), if_neg hd]
              have := f4 hj d' (i' + (i1 - i) + (i2 - i1)) k'' (by
                have := ha.sub (i2 - i) (j - i2) (by omega)
                rwa [show i + (i2 - i) = i2 by omega, show i' + (i2 - i) = i' + (i1 - i) + (i2 - i1) by omega] at this)
                (by omega) (by omega) (by omega)
              rw [this]
              simp only [Out.ok.injEq]
              omega

theorem skip_ne_panic (d : Str) (i : Nat) : skip d i ≠ .panic := skipLoop_ne_panic _ _ _ _

/-- A record that the decoder of a message with these fields keeps: a tag of another
field and what `skip` takes with it. -/
def UnknownRec (keys : List Nat) (r : Str) : Prop :=
  ∃ wire i, readVarint 64 r 10 0 0 0 = .ok (wire, i) ∧ wire % 8 ≠ 4 ∧ 1 ≤ wire / 8 % 2 ^ 32 ∧ wire / 8 % 2 ^ 32 < 2 ^ 31 ∧
    wire / 8 % 2 ^ 32 ∉ keys ∧ skip r 0 = .ok r.length

/-- The kept records of a message. -/
inductive Unknowns (keys : List Nat) : Str → Prop
  | nil : Unknowns keys []
  | snoc {u r : Str} : Unknowns keys u → UnknownRec keys r → Unknowns keys (u ++ r)

variable {M S : Type} {fields : List (Nat × Handler M)} {unknown : Str → M → M}

theorem lookup_none {α : Type} {l : List (Nat × α)} {k : Nat} : l.lookup k = none ↔ k ∉ l.map Prod.fst := by
  induction l with
  | nil => simp
  | cons p l ih =>
    obtain ⟨a, b⟩ := p
    rw [List.lookup_cons]
    by_cases h : k = a
    · simp [h]
    · have : (k == a) = false := by simpa using h
      rw [this, List.map_cons, List.mem_cons]
      simp only [h, false_or]
      exact ih

theorem lookup_mem {α : Type} {l : List (Nat × α)} {k : Nat} {a : α} (h : l.lookup k = some a) : (k, a) ∈ l := by
  induction l with
  | nil => simp at h
  | cons p l ih =>
    obtain ⟨x, b⟩ := p
    rw [List.lookup_cons] at h
    by_cases hx : k = x
    · simp [hx] at h
      simp [hx, h]
    · have : (k == x) = false := by simpa using hx
      rw [this] at h
      exact List.mem_cons_of_mem _ (ih h)

theorem agree_mid (pre r post : Str) : Agree r 0 (pre ++ r ++ post) pre.length r.length := by
  intro t ht
  rw [List.append_assoc, List.getElem?_append_right (by omega), Nat.add_sub_cancel_left, List.getElem?_append_left ht,
    Nat.zero_add]

theorem step_unknown {r : Str} (h : UnknownRec (fields.map Prod.fst) r) (pre post : Str) (m : M)
    (hl : (pre ++ r ++ post).length < 2 ^ 63) :
    step fields unknown (pre ++ r ++ post) pre.length m = .ok (unknown r m, pre.length + r.length) := by
  obtain ⟨wire, i, hv, h4, h1, h2, hk, hs⟩ := h
  obtain ⟨hi, hi2, hloc⟩ := readVarint_ok hv
  have hA := agree_mid pre r post
  have e1 := hloc _ _ (hA.sub 0 (i - 0) (by omega))
  unfold step
  rw [Nat.add_zero] at e1
  rw [e1]
  simp only
  rw [if_neg h4, if_neg (by omega), lookup_none.2 hk]
  simp only
  unfold skip at hs ⊢
  obtain ⟨s1, _, s3⟩ := skipLoop_ok hs
  rw [List.drop_zero] at s3
  have e2 := s3 (by omega) ((pre ++ r ++ post).drop pre.length) 0 (((pre ++ r ++ post).drop pre.length).length + 1) (by
    intro t ht
    rw [List.getElem?_drop, Nat.zero_add]
    simpa using hA t (by omega)) (by simp at hl ⊢; omega) (by simp) (by simp; omega)
  rw [e2]
  simp only [Nat.zero_add, Nat.sub_zero]
  rw [if_neg (by simp at hl ⊢; omega), if_neg (by simp), slice_append]

/-- `m.unknownFields`, copied to the end. -/
theorem partOk_raw {u : Str} {m : M} (h : Unknowns (fields.map Prod.fst) u)
    (happ : ∀ (u r : Str), unknown r (unknown u m) = unknown (u ++ r) m) (h0 : unknown [] m = m) :
    PartOk fields unknown (.raw u) m (unknown u m) := by
  refine ⟨u, ⟨rfl, writes_bytes u⟩, fun _ => ?_⟩
  induction h with
  | nil => rw [h0]; exact adv_nil m
  | @snoc u r _ hr ih =>
    rw [← happ u r]
    refine adv_append (ih (by simp at *; omega)) ?_
    intro pre post hl
    have hrl : 0 < r.length := by
      obtain ⟨_, _, hv, _⟩ := hr
      have := readVarint_ok hv
      omega
    exact .head (by simp; omega) (by omega) (step_unknown hr pre post _ hl) (.refl _ _)

/-! ### Any input -/

/-- A handler never crashes, moves forward and keeps a property of the message. -/
structure Sane (P : M → Prop) (h : Handler M) : Prop where
  noPanic : ∀ d wt i m, h d wt i m ≠ .panic
  moves : ∀ d wt i m m' j, h d wt i m = .ok (m', j) → i ≤ j ∧ j ≤ d.length
  keeps : ∀ d wt i m m' j, P m → h d wt i m = .ok (m', j) → P m'

variable {P : M → Prop}

theorem sane_str {set : Str → M → M} (h : ∀ s m, P m → P (set s m)) : Sane P (onStr set) := by
  refine ⟨fun d wt i m => ?_, fun d wt i m m' j h' => ?_, fun d wt i m m' j hp h' => ?_⟩
  · unfold onStr
    split
    · simp
    · split
      · simp
      · rename_i hb; exact absurd hb (readBytes_ne_panic _ _)
      · simp
  all_goals
    unfold onStr at h'
    split at h'
    · simp at h'
    · split at h'
      · simp at h'
      · simp at h'
      · rename_i hb
        simp only [Out.ok.injEq, Prod.mk.injEq] at h'
        obtain ⟨rfl, rfl⟩ := h'
        first
          | exact h _ _ hp
          | exact ⟨Nat.le_of_lt (readBytes_ok hb).1, (readBytes_ok hb).2.1⟩

theorem sane_fix {set : UInt64 → M → M} (h : ∀ s m, P m → P (set s m)) : Sane P (onFix set) := by
  refine ⟨fun d wt i m => ?_, fun d wt i m m' j h' => ?_, fun d wt i m m' j hp h' => ?_⟩
  · unfold onFix
    split
    · simp
    · split
      · simp
      · rename_i hb; exact absurd hb (readWord_ne_panic _ _)
      · simp
  all_goals
    unfold onFix at h'
    split at h'
    · simp at h'
    · split at h'
      · simp at h'
      · simp at h'
      · rename_i hb
        simp only [Out.ok.injEq, Prod.mk.injEq] at h'
        obtain ⟨rfl, rfl⟩ := h'
        first
          | exact h _ _ hp
          | (have e := readWord_ok hb
             unfold readWord at hb
             split at hb
             · simp at hb
             · omega)

theorem sane_enum {set : UInt32 → M → M} (h : ∀ s m, P m → P (set s m)) : Sane P (onEnum set) := by
  refine ⟨fun d wt i m => ?_, fun d wt i m m' j h' => ?_, fun d wt i m m' j hp h' => ?_⟩
  · unfold onEnum
    split
    · simp
    · split
      · simp
      · rename_i hb; exact absurd hb (readVarint_ne_panic _ _ _ _ _ _)
      · simp
  all_goals
    unfold onEnum at h'
    split at h'
    · simp at h'
    · split at h'
      · simp at h'
      · simp at h'
      · rename_i hb
        simp only [Out.ok.injEq, Prod.mk.injEq] at h'
        obtain ⟨rfl, rfl⟩ := h'
        first
          | exact h _ _ hp
          | exact ⟨Nat.le_of_lt (readVarint_ok hb).1, (readVarint_ok hb).2.1⟩

theorem sane_varint {set : UInt64 → M → M} (h : ∀ s m, P m → P (set s m)) : Sane P (onVarint set) := by
  refine ⟨fun d wt i m => ?_, fun d wt i m m' j h' => ?_, fun d wt i m m' j hp h' => ?_⟩
  · unfold onVarint
    split
    · simp
    · split
      · simp
      · rename_i hb; exact absurd hb (readVarint_ne_panic _ _ _ _ _ _)
      · simp
  all_goals
    unfold onVarint at h'
    split at h'
    · simp at h'
    · split at h'
      · simp at h'
      · simp at h'
      · rename_i hb
        simp only [Out.ok.injEq, Prod.mk.injEq] at h'
        obtain ⟨rfl, rfl⟩ := h'
        first
          | exact h _ _ hp
          | exact ⟨Nat.le_of_lt (readVarint_ok hb).1, (readVarint_ok hb).2.1⟩

theorem sane_bool {set : Bool → M → M} (h : ∀ s m, P m → P (set s m)) : Sane P (onBool set) := by
  refine ⟨fun d wt i m => ?_, fun d wt i m m' j h' => ?_, fun d wt i m m' j hp h' => ?_⟩
  · unfold onBool
    split
    · simp
    · split
      · simp
      · rename_i hb; exact absurd hb (readVarint_ne_panic _ _ _ _ _ _)
      · simp
  all_goals
    unfold onBool at h'
    split at h'
    · simp at h'
    · split at h'
      · simp at h'
      · simp at h'
      · rename_i hb
        simp only [Out.ok.injEq, Prod.mk.injEq] at h'
        obtain ⟨rfl, rfl⟩ := h'
        first
          | exact h _ _ hp
          | exact ⟨Nat.le_of_lt (readVarint_ok hb).1, (readVarint_ok hb).2.1⟩

/-- A decoder never crashes and keeps a property of the message. -/
structure SaneDec (Q : S → Prop) (dec : S → Str → Out S) : Prop where
  noPanic : ∀ m d, dec m d ≠ .panic
  keeps : ∀ m d m', Q m → dec m d = .ok m' → Q m'

theorem sane_msg {Q : S → Prop} {get : M → S} {set : S → M → M} {dec : S → Str → Out S} (hd : SaneDec Q dec)
    (hg : ∀ m, P m → Q (get m)) (h : ∀ s m, P m → Q s → P (set s m)) : Sane P (onMsg get set dec) := by
  refine ⟨fun d wt i m => ?_, fun d wt i m m' j h' => ?_, fun d wt i m m' j hp h' => ?_⟩
  · unfold onMsg
    split
    · simp
    · split
      · simp
      · rename_i hb; exact absurd hb (readBytes_ne_panic _ _)
      · split
        · simp
        · rename_i hb; exact absurd hb (hd.noPanic _ _)
        · simp
  all_goals
    unfold onMsg at h'
    split at h'
    · simp at h'
    · split at h'
      · simp at h'
      · simp at h'
      · rename_i hb
        split at h'
        · simp at h'
        · simp at h'
        · rename_i hx
          simp only [Out.ok.injEq, Prod.mk.injEq] at h'
          obtain ⟨rfl, rfl⟩ := h'
          first
            | exact h _ _ hp (hd.keeps _ _ _ (hg _ hp) hx)
            | exact ⟨Nat.le_of_lt (readBytes_ok hb).1, (readBytes_ok hb).2.1⟩

theorem step_ne_panic (hf : ∀ p ∈ fields, Sane P p.2) (d : Str) (pre : Nat) (m : M) : step fields unknown d pre m ≠ .panic := by
  unfold step
  split
  · simp
  · rename_i h; exact absurd h (readVarint_ne_panic _ _ _ _ _ _)
  · simp only
    split
    · simp
    · split
      · simp
      · split
        · rename_i h hh
          exact (hf _ (lookup_mem hh)).noPanic _ _ _ _
        · split
          · simp
          · rename_i h; exact absurd h (skip_ne_panic _ _)
          · split
            · simp
            · split
              · simp
              · unfold slice
                rw [if_pos (by omega)]
                simp

theorem step_ok (hf : ∀ p ∈ fields, Sane P p.2)
    (hu : ∀ u m, P m → UnknownRec (fields.map Prod.fst) u → P (unknown u m)) {d : Str} {pre : Nat} {m m' : M} {j : Nat}
    (h : step fields unknown d pre m = .ok (m', j)) : pre < j ∧ j ≤ d.length ∧ (P m → P m') := by
  unfold step at h
  split at h
  · simp at h
  · simp at h
  · rename_i wire i hv
    obtain ⟨h1, h2, h3⟩ := readVarint_ok hv
    simp only at h
    split at h
    · simp at h
    · rename_i h4
      split at h
      · simp at h
      · rename_i hn
        split at h
        · rename_i hd hh
          have hs := hf _ (lookup_mem hh)
          have := hs.moves _ _ _ _ _ _ h
          exact ⟨by omega, this.2, fun hp => hs.keeps _ _ _ _ _ _ hp h⟩
        · rename_i hh
          split at h
          · simp at h
          · simp at h
          · rename_i n hs
            split at h
            · simp at h
            · split at h
              · simp at h
              · rename_i hl63 hl
                unfold slice at h
                rw [if_pos (by omega)] at h
                simp only [Out.ok.injEq, Prod.mk.injEq] at h
                obtain ⟨rfl, rfl⟩ := h
                unfold skip at hs
                obtain ⟨s1, ⟨w2, i2, s2, s2'⟩, s3⟩ := skipLoop_ok hs
                refine ⟨by omega, by omega, fun hp => hu _ _ hp ?_⟩
                have hlen : ((d.drop pre).take (pre + n - pre)).length = n := by simp; omega
                have hA : Agree (d.drop pre) 0 ((d.drop pre).take (pre + n - pre)) 0 n := by
                  intro t ht
                  rw [Nat.zero_add, List.getElem?_take_of_lt (by omega)]
                have hA' : Agree d pre (d.drop pre) 0 n := by
                  intro t ht
                  rw [Nat.zero_add, List.getElem?_drop]
                have hin : i - pre ≤ n := by
                  have e := h3 (d.drop pre) 0 (by intro t _; rw [Nat.zero_add, List.getElem?_drop])
                  rw [e] at s2
                  simp only [Out.ok.injEq, Prod.mk.injEq] at s2
                  omega
                refine ⟨wire, 0 + (i - pre), h3 _ _ ?_, h4, by omega, by omega, lookup_none.1 hh, ?_⟩
                · intro t ht
                  rw [hA t (by omega), hA' t (by omega)]
                · unfold skip
                  rw [List.drop_zero, hlen]
                  have := s3 (by simp; omega) _ 0 (n + 1) hA (by omega) (by rw [hlen]; omega) (by omega)
                  rw [this]
                  simp

theorem loop_ne_panic (hf : ∀ p ∈ fields, Sane P p.2) (d : Str) (k i : Nat) (m : M) :
    loop fields unknown d k i m ≠ .panic := by
  induction k generalizing i m with
  | zero => unfold loop; split <;> (try split) <;> simp
  | succ k ih =>
    unfold loop
    split
    · split
      · simp
      · rename_i h; exact absurd h (step_ne_panic hf _ _ _)
      · exact ih _ _
    · split <;> simp

theorem loop_keeps (hf : ∀ p ∈ fields, Sane P p.2)
    (hu : ∀ u m, P m → UnknownRec (fields.map Prod.fst) u → P (unknown u m)) (d : Str) (k i : Nat) {m m' : M} (hp : P m)
    (h : loop fields unknown d k i m = .ok m') : P m' := by
  induction k generalizing i m with
  | zero =>
    unfold loop at h
    split at h
    · simp at h
    · split at h
      · simp at h
      · simp only [Out.ok.injEq] at h
        exact h ▸ hp
  | succ k ih =>
    unfold loop at h
    split at h
    · split at h
      · simp at h
      · simp at h
      · rename_i hs
        exact ih _ ((step_ok hf hu hs).2.2 hp) h
    · split at h
      · simp at h
      · simp only [Out.ok.injEq] at h
        exact h ▸ hp

/-- The bound on the rounds is no restriction. -/
theorem loop_fuel (hf : ∀ p ∈ fields, Sane P p.2) (d : Str) (k k' i : Nat) (m : M) (hk : d.length - i ≤ k) (hk' : k ≤ k') :
    loop fields unknown d k' i m = loop fields unknown d k i m := by
  have hf' : ∀ p ∈ fields, Sane (fun _ => True) p.2 := fun p hp =>
    ⟨(hf p hp).noPanic, (hf p hp).moves, fun _ _ _ _ _ _ _ _ => trivial⟩
  induction k generalizing i m k' with
  | zero =>
    cases k' with
    | zero => rfl
    | succ k' =>
      unfold loop
      rw [if_neg (by omega), if_neg (show ¬ i < d.length by omega)]
  | succ k ih =>
    obtain ⟨k'', rfl⟩ : ∃ k'', k' = k'' + 1 := ⟨k' - 1, by omega⟩
    unfold loop
    split
    · split
      · rfl
      · rfl
      · rename_i hs
        have := step_ok hf' (fun _ _ _ _ => trivial) hs
        exact ih _ _ _ (by omega) (by omega)
    · rfl

theorem saneDec {Q : M → Prop} (hf : ∀ p ∈ fields, Sane Q p.2)
    (hu : ∀ u m, Q m → UnknownRec (fields.map Prod.fst) u → Q (unknown u m)) : SaneDec Q (unmarshal fields unknown) :=
  ⟨fun m d => loop_ne_panic hf d _ _ m, fun _ d _ hq h => loop_keeps hf hu d _ _ hq h⟩

/-- Handlers that agree on an input decode it alike. -/
theorem unmarshal_congr {fields' : List (Nat × Handler M)} {d : Str}
    (h : ∀ num, (fields.lookup num).map (· d) = (fields'.lookup num).map (· d)) (m : M) :
    unmarshal fields unknown m d = unmarshal fields' unknown m d := by
  have hs : ∀ i m, step fields unknown d i m = step fields' unknown d i m := by
    intro i m
    unfold step
    split
    · rfl
    · rfl
    · rename_i wire i _
      simp only
      split
      · rfl
      · split
        · rfl
        · have := h (wire / 8 % 2 ^ 32)
          cases h1 : fields.lookup (wire / 8 % 2 ^ 32) <;> cases h2 : fields'.lookup (wire / 8 % 2 ^ 32) <;>
            simp_all
  unfold unmarshal
  generalize d.length = k
  generalize 0 = i
  induction k generalizing i m with
  | zero => rfl
  | succ k ih =>
    unfold loop
    rw [hs]
    split
    · split
      · rfl
      · rfl
      · exact ih _ _
    · rfl

theorem onMsg_congr {get : M → S} {set : S → M → M} {dec dec' : S → Str → Out S} {d : Str}
    (h : ∀ m s, s.length < d.length → dec m s = dec' m s) : onMsg get set dec d = onMsg get set dec' d := by
  funext wt i m
  unfold onMsg
  split
  · rfl
  · split
    · rfl
    · rfl
    · rename_i s j hb
      have := readBytes_ok hb
      rw [h _ s (by omega)]

theorem forall_field {n : Nat} {h : Handler M} {l : List (Nat × Handler M)} (hh : Sane P h) (hl : ∀ p ∈ l, Sane P p.2) :
    ∀ p ∈ (n, h) :: l, Sane P p.2 := by
  intro p hp
  rcases List.mem_cons.1 hp with rfl | hp
  · exact hh
  · exact hl p hp

theorem forall_none : ∀ p ∈ ([] : List (Nat × Handler M)), Sane P p.2 := by simp

theorem ok_getD {Q : S → Prop} {o : Option S} {new : S} (h : ∀ x, o = some x → Q x) (h0 : Q new) : Q (o.getD new) := by
  cases o with
  | none => exact h0
  | some x => exact h x rfl

theorem ok_none {Q : S → Prop} : ∀ x, (none : Option S) = some x → Q x := by intro _ h; cases h

theorem ok_nil {Q : S → Prop} : ∀ x ∈ ([] : List S), Q x := fun _ h => absurd h List.not_mem_nil

theorem ok_some {Q : S → Prop} {s : S} (h : Q s) : ∀ x, some s = some x → Q x := by
  intro x hx
  cases hx
  exact h

theorem ok_snoc {Q : S → Prop} {l : List S} {s : S} (hl : ∀ x ∈ l, Q x) (h : Q s) : ∀ x ∈ l ++ [s], Q x := by
  intro x hx
  rcases List.mem_append.1 hx with hx | hx
  · exact hl x hx
  · cases List.mem_singleton.1 hx
    exact h

end Verif.Wire
