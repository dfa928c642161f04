import Verif.Model.Uniuri
import Verif.Spec.Chance
import Verif.Proofs.Lib
import Mathlib.Tactic.Ring
import Mathlib.Data.List.Nodup

/-! Counting the outcomes of the generators. -/
namespace Verif.Uniuri
open Verif.Spec Verif.Lib

/-! ### All strings of bytes -/

theorem sum_const {α : Type} (l : List α) (Y : Nat) : (l.map fun _ => Y).sum = l.length * Y := by
  induction l with
  | nil => simp
  | cons a l ih => rw [List.map_cons, List.sum_cons, ih, List.length_cons]; ring

theorem mem_streams {N : Nat} {bs : Str} : bs ∈ streams N ↔ bs.length = N := by
  induction N generalizing bs with
  | zero => simp [streams]
  | succ N ih =>
    simp only [streams, List.mem_flatMap, List.mem_range, List.mem_map]
    constructor
    · rintro ⟨b, -, x, hx, rfl⟩
      simp [ih.1 hx]
    · intro h
      cases bs with
      | nil => simp at h
      | cons c x => exact ⟨c.toNat, c.toNat_lt, x, ih.2 (by simpa using h), by simp⟩

theorem nodup_streams (N : Nat) : (streams N).Nodup := by
  induction N with
  | zero => simp [streams]
  | succ N ih =>
    rw [streams, List.nodup_flatMap]
    refine ⟨fun b _ => ih.map (fun x y h => (List.cons.inj h).2), ?_⟩
    refine List.Pairwise.imp_of_mem ?_ List.nodup_range
    intro a b ha hb hab
    rw [Function.onFun, List.disjoint_left]
    intro x hx hy
    obtain ⟨u, -, rfl⟩ := List.mem_map.1 hx
    obtain ⟨v, -, e⟩ := List.mem_map.1 hy
    have := congrArg UInt8.toNat (List.cons.inj e).1
    simp only [UInt8.toNat_ofNat', List.mem_range] at this ha hb
    omega

theorem length_streams (N : Nat) : (streams N).length = 256 ^ N := by
  induction N with
  | zero => rfl
  | succ N ih =>
    simp only [streams, List.length_flatMap, List.length_map, ih]
    rw [sum_const, List.length_range, Nat.pow_succ, Nat.mul_comm]

/-- How many strings of `N` bytes have the property. -/
def cnt (P : Str → Bool) (N : Nat) : Nat := (streams N).countP P

theorem cnt_succ (P : Str → Bool) (N : Nat) :
    cnt P (N + 1) = ((List.range 256).map fun b => cnt (fun bs => P (UInt8.ofNat b :: bs)) N).sum := by
  rw [cnt, streams, List.countP_flatMap]
  congr 1
  apply List.map_congr_left
  intro b _
  simp only [Function.comp, List.countP_map, cnt]
  rfl

theorem cnt_false (N : Nat) : cnt (fun _ => false) N = 0 := by simp [cnt]

theorem cnt_le (P : Str → Bool) (N : Nat) : cnt P N ≤ 256 ^ N := by
  rw [← length_streams]
  exact List.countP_le_length

/-- Bytes that are thrown away do not matter. -/
theorem cnt_drop (F : Str → Bool) (d N : Nat) :
    cnt (fun bs => decide (d ≤ bs.length) && F (bs.drop d)) N = if N < d then 0 else 256 ^ d * cnt F (N - d) := by
  induction d generalizing N with
  | zero => simp
  | succ d ih =>
    cases N with
    | zero => simp [cnt, streams]
    | succ N =>
      rw [cnt_succ]
      simp only [List.length_cons, Nat.add_le_add_iff_right, List.drop_succ_cons, ih N, Nat.add_lt_add_iff_right,
        Nat.add_sub_add_right]
      rw [sum_const, List.length_range]
      split
      · simp
      · rw [Nat.pow_succ]; ring

/-! ### One byte -/

/-- Exactly one number below `m` is `j`. -/
theorem sum_one (m j Y : Nat) (hj : j < m) : ((List.range m).map fun x => if x = j then Y else 0).sum = Y := by
  induction m with
  | zero => omega
  | succ m ih =>
    rw [List.range_succ, List.map_append, List.sum_append]
    by_cases h : j = m
    · subst h
      have : ((List.range j).map fun x => if x = j then Y else 0) = (List.range j).map fun _ => 0 := by
        apply List.map_congr_left
        intro x hx
        have := List.mem_range.1 hx
        rw [if_neg (by omega)]
      rw [this, sum_const]
      simp
    · rw [ih (by omega)]
      simp [Ne.symm h]

theorem sum_residue (m j Y : Nat) (hj : j < m) : ∀ q, ((List.range (q * m)).map fun x => if x % m = j then Y else 0).sum = q * Y := by
  intro q
  induction q with
  | zero => simp
  | succ q ih =>
    rw [Nat.succ_mul, List.range_add, List.map_append, List.sum_append, ih, List.map_map]
    have : ((List.range m).map ((fun x => if x % m = j then Y else 0) ∘ fun x => q * m + x)) =
        (List.range m).map fun x => if x = j then Y else 0 := by
      apply List.map_congr_left
      intro x hx
      have hx := List.mem_range.1 hx
      simp only [Function.comp, Nat.mul_add_mod_self_right, Nat.mod_eq_of_lt hx]
    rw [this, sum_one m j Y hj]
    ring

/-- A sum over the bytes: those above the bound, and the ones with a given rest. -/
theorem sum_bytes (m j X Y : Nat) (hj : j < m) (hm : m ≤ 256) :
    ((List.range 256).map fun b => if b > maxrb m then X else if b % m = j then Y else 0).sum = 256 % m * X + 256 / m * Y := by
  have hq : 256 / m * m + 256 % m = 256 := Nat.div_add_mod' 256 m
  have hr : 256 % m < m := Nat.mod_lt _ (by omega)
  have e : List.range 256 = List.range (256 / m * m + 256 % m) := by rw [hq]
  rw [e, List.range_add, List.map_append, List.sum_append, List.map_map]
  have h1 : ((List.range (256 / m * m)).map fun b => if b > maxrb m then X else if b % m = j then Y else 0) =
      (List.range (256 / m * m)).map fun b => if b % m = j then Y else 0 := by
    apply List.map_congr_left
    intro x hx
    have hx := List.mem_range.1 hx
    rw [if_neg (by unfold maxrb; omega)]
  have h2 : ((List.range (256 % m)).map ((fun b => if b > maxrb m then X else if b % m = j then Y else 0) ∘ fun x => 256 / m * m + x)) =
      (List.range (256 % m)).map fun _ => X := by
    apply List.map_congr_left
    intro x hx
    have hx := List.mem_range.1 hx
    simp only [Function.comp]
    rw [if_pos (by unfold maxrb; omega)]
  rw [h1, h2, sum_residue m j Y hj, sum_const, List.length_range, Nat.add_comm]

/-! ### The loops -/

/-- The strings of bytes that give these characters and leave something with the property. -/
def gives (chars : Str) (buf : Nat → Nat) (n left : Nat) (code : Str) (F : Str → Bool) (bs : Str) : Bool :=
  match fill chars buf n left bs with
  | some (c, rest) => decide (c = code) && F rest
  | none => false

theorem gives_zero (chars : Str) (buf : Nat → Nat) (left : Nat) (F : Str → Bool) (bs : Str) :
    gives chars buf 0 left [] F bs = (decide (left ≤ bs.length) && F (bs.drop left)) := by
  simp only [gives, fill]
  split <;> rename_i h
  · split at h
    · cases h
    · simp only [Option.some.injEq, Prod.mk.injEq] at h
      obtain ⟨rfl, rfl⟩ := h
      rename_i h
      simp [Nat.not_lt.1 h]
  · split at h
    · rename_i h'
      simp [Nat.not_le.2 h']
    · cases h

theorem idx {chars : Str} (hn : chars.Nodup) {j : Nat} (hj : j < chars.length) {i : Nat} (hi : i < chars.length) :
    chars.getD i 0 = chars[j] ↔ i = j := by
  rw [List.getD_eq_getElem?_getD, List.getElem?_eq_getElem hi, Option.getD_some]
  exact List.Nodup.getElem_inj_iff hn

theorem gives_cons {chars : Str} (hn : chars.Nodup) (buf : Nat → Nat) (n left : Nat) {j : Nat} (hj : j < chars.length) (code : Str) (F : Str → Bool)
    (b : Nat) (hb : b < 256) (N : Nat) :
    cnt (fun bs => gives chars buf (n + 1) left (chars[j] :: code) F (UInt8.ofNat b :: bs)) N =
      if b > maxrb chars.length then cnt (gives chars buf (n + 1) (next buf (n + 1) left) (chars[j] :: code) F) N
      else if b % chars.length = j then cnt (gives chars buf n (next buf (n + 1) left) code F) N else 0 := by
  have hbn : (UInt8.ofNat b).toNat = b := by simp; omega
  have hm : b % chars.length < chars.length := Nat.mod_lt _ (by omega)
  split
  · rename_i h
    congr 1
    funext bs
    simp only [gives, fill, hbn, h, if_true]
  · rename_i h
    split
    · rename_i h'
      congr 1
      funext bs
      simp only [gives, fill, hbn, h, if_false]
      cases fill chars buf n (next buf (n + 1) left) bs with
      | none => rfl
      | some x =>
        have e := (idx hn hj hm).2 h'
        simp only [Option.map_some, e, List.cons.injEq, true_and]
    · rename_i h'
      rw [← cnt_false N]
      congr 1
      funext bs
      simp only [gives, fill, hbn, h, if_false]
      cases fill chars buf n (next buf (n + 1) left) bs with
      | none => rfl
      | some x =>
        have : ¬ chars.getD (b % chars.length) 0 = chars[j] := fun e => h' ((idx hn hj hm).1 e)
        simp only [Option.map_some, List.cons.injEq, this, false_and, decide_false, Bool.false_and]

theorem cnt_gives_succ {chars : Str} (hn : chars.Nodup) (h256 : chars.length ≤ 256) (buf : Nat → Nat) (n left : Nat) {c : UInt8} (hc : c ∈ chars) (code : Str) (F : Str → Bool)
    (N : Nat) : cnt (gives chars buf (n + 1) left (c :: code) F) (N + 1) =
      256 % chars.length * cnt (gives chars buf (n + 1) (next buf (n + 1) left) (c :: code) F) N +
      256 / chars.length * cnt (gives chars buf n (next buf (n + 1) left) code F) N := by
  obtain ⟨j, hj, rfl⟩ := List.mem_iff_getElem.1 hc
  rw [cnt_succ, ← sum_bytes chars.length j _ _ hj h256]
  congr 1
  apply List.map_congr_left
  intro b hb
  exact gives_cons hn buf n left hj code F b (List.mem_range.1 hb) N

theorem gives_nil (chars : Str) (buf : Nat → Nat) (n left : Nat) (code : Str) (F : Str → Bool) :
    cnt (gives chars buf (n + 1) left code F) 0 = 0 := by
  simp [cnt, streams, gives, fill]

/-- The number of outcomes depends on the number of characters only. -/
theorem gives_uniform {chars : Str} (hn : chars.Nodup) (h256 : chars.length ≤ 256) (buf : Nat → Nat) (F : Str → Bool) : ∀ N n left (x y : Str), x.length = n → y.length = n →
    (∀ c ∈ x, c ∈ chars) → (∀ c ∈ y, c ∈ chars) →
    cnt (gives chars buf n left x F) N = cnt (gives chars buf n left y F) N := by
  intro N
  induction N with
  | zero =>
    intro n left x y hx hy _ _
    cases n with
    | zero =>
      rw [List.length_eq_zero_iff.1 hx, List.length_eq_zero_iff.1 hy]
    | succ n => rw [gives_nil, gives_nil]
  | succ N ih =>
    intro n left x y hx hy hxm hym
    cases n with
    | zero => rw [List.length_eq_zero_iff.1 hx, List.length_eq_zero_iff.1 hy]
    | succ n =>
      obtain ⟨a, x, rfl⟩ : ∃ a x', x = a :: x' := by cases x with | nil => simp at hx | cons a x => exact ⟨a, x, rfl⟩
      obtain ⟨b, y, rfl⟩ : ∃ a x', y = a :: x' := by cases y with | nil => simp at hy | cons a x => exact ⟨a, x, rfl⟩
      rw [cnt_gives_succ hn h256 buf n left (hxm a (by simp)), cnt_gives_succ hn h256 buf n left (hym b (by simp)),
        ih (n + 1) (next buf (n + 1) left) (a :: x) (b :: y) hx hy hxm hym,
        ih n (next buf (n + 1) left) x y (by simpa using hx) (by simpa using hy) (fun c hc => hxm c (by simp [hc])) (fun c hc => hym c (by simp [hc]))]

theorem fill_chars {chars : Str} (h0 : chars ≠ []) {buf : Nat → Nat} : ∀ (bs : Str) (n left : Nat) (x rest : Str),
    fill chars buf n left bs = some (x, rest) → x.length = n ∧ ∀ c ∈ x, c ∈ chars := by
  intro bs
  induction bs with
  | nil =>
    intro n left x rest h
    cases n with
    | zero =>
      simp only [fill] at h
      split at h
      · cases h
      · cases h; simp
    | succ n => simp [fill] at h
  | cons b bs ih =>
    intro n left x rest h
    cases n with
    | zero =>
      simp only [fill] at h
      split at h
      · cases h
      · cases h; simp
    | succ n =>
      simp only [fill] at h
      split at h
      · exact ih _ _ _ _ h
      · obtain ⟨⟨y, r⟩, hy, e⟩ := Option.map_eq_some_iff.1 h
        cases e
        obtain ⟨h1, h2⟩ := ih _ _ _ _ hy
        refine ⟨by simp [h1], ?_⟩
        intro c hc
        rcases List.mem_cons.1 hc with rfl | hc
        · have hlt : b.toNat % chars.length < chars.length := Nat.mod_lt _ (List.length_pos_iff.2 h0)
          rw [List.getD_eq_getElem?_getD, List.getElem?_eq_getElem hlt]
          simp
        · exact h2 c hc

/-- A string that has not this form is never produced. -/
theorem cnt_gives_zero {chars : Str} (h0 : chars ≠ []) (buf : Nat → Nat) (n left : Nat) (code : Str) (F : Str → Bool)
    (h : ¬ (code.length = n ∧ ∀ c ∈ code, c ∈ chars)) (N : Nat) : cnt (gives chars buf n left code F) N = 0 := by
  rw [← cnt_false N]
  congr 1
  funext bs
  unfold gives
  split
  · rename_i c rest hf
    have hne : ¬ c = code := by rintro rfl; exact h (fill_chars h0 bs n left _ _ hf)
    simp [hne]
  · rfl

/-- Each character divides the chance by the size of the alphabet. -/
theorem gives_bound {chars : Str} (hn : chars.Nodup) (h256 : chars.length ≤ 256) (h0 : chars ≠ []) (buf : Nat → Nat) (F : Str → Bool) (K : Nat)
    (hF : ∀ N, cnt F N * K ≤ 256 ^ N) : ∀ N n left (code : Str),
    cnt (gives chars buf n left code F) N * (chars.length ^ n * K) ≤ 256 ^ N := by
  intro N n left code
  by_cases h : code.length = n ∧ ∀ c ∈ code, c ∈ chars
  swap
  · rw [cnt_gives_zero h0 buf n left code F h]; simp
  obtain ⟨hl, hm⟩ := h
  have base : ∀ N left, cnt (gives chars buf 0 left [] F) N * (chars.length ^ 0 * K) ≤ 256 ^ N := by
    intro N left
    have e : gives chars buf 0 left [] F = fun bs => (decide (left ≤ bs.length) &&
        F (bs.drop left)) := funext (gives_zero chars buf left F)
    rw [e, cnt_drop]
    split
    · simp
    · rename_i hd
      have := Nat.mul_le_mul_left (256 ^ left) (hF (N - left))
      rw [← Nat.pow_add, Nat.add_sub_cancel' (Nat.not_lt.1 hd)] at this
      calc _ = 256 ^ left * (cnt F (N - left) * K) := by ring
        _ ≤ _ := this
  induction N generalizing n left code with
  | zero =>
    cases n with
    | zero => rw [List.length_eq_zero_iff.1 hl]; exact base 0 left
    | succ n => rw [gives_nil]; simp
  | succ N ih =>
    cases n with
    | zero => rw [List.length_eq_zero_iff.1 hl]; exact base _ left
    | succ n =>
      obtain ⟨a, x, rfl⟩ : ∃ a x', code = a :: x' := by cases code with | nil => simp at hl | cons a x => exact ⟨a, x, rfl⟩
      rw [cnt_gives_succ hn h256 buf n left (hm a (by simp))]
      have h1 := ih (n + 1) (next buf (n + 1) left) (a :: x) hl hm
      have h2 := ih n (next buf (n + 1) left) x (by simpa using hl) (fun c hc => hm c (by simp [hc]))
      have hq : 256 / chars.length * chars.length + 256 % chars.length = 256 := Nat.div_add_mod' 256 _
      generalize 256 / chars.length = q at *
      generalize 256 % chars.length = r at *
      generalize cnt (gives chars buf (n + 1) (next buf (n + 1) left) (a :: x) F) N = X at *
      generalize cnt (gives chars buf n (next buf (n + 1) left) x F) N = Y at *
      generalize chars.length = m at *
      calc (r * X + q * Y) * (m ^ (n + 1) * K) = r * (X * (m ^ (n + 1) * K)) + q * m * (Y * (m ^ n * K)) := by ring
        _ ≤ r * 256 ^ N + q * m * 256 ^ N := Nat.add_le_add (Nat.mul_le_mul_left _ h1) (Nat.mul_le_mul_left _ h2)
        _ = (q * m + r) * 256 ^ N := by ring
        _ = 256 ^ (N + 1) := by rw [hq, Nat.pow_succ, Nat.mul_comm]

theorem one_bound (N : Nat) : cnt (fun _ => true) N * 1 ≤ 256 ^ N := by rw [Nat.mul_one]; exact cnt_le _ N

/-- Producing a string is producing its characters. -/
theorem outcomes_map (p : Policy) (chars : Str) (n : Nat) (N : Nat) (code : Str) :
    outcomes (fun bs => (newLenChars p n chars bs).map Prod.fst) N code = cnt (gives chars (p chars.length n) n 0 code fun _ => true) N := by
  unfold outcomes cnt
  congr 1
  funext bs
  show decide (Option.map Prod.fst (fill chars (p chars.length n) n 0 bs) = some code) = _
  unfold gives
  cases fill chars (p chars.length n) n 0 bs with
  | none => simp
  | some x => simp

/-- A rendering that loses nothing changes no chance. -/
theorem outcomes_render {gen : Str → Option Str} {P : Str → Prop} {f : Str → Str} (hP : ∀ bs x, gen bs = some x → P x)
    (hf : ∀ x y, P x → P y → f x = f y → x = y) (N : Nat) {x : Str} (hx : P x) :
    outcomes (fun bs => (gen bs).map f) N (f x) = outcomes gen N x := by
  unfold outcomes
  congr 1
  funext bs
  rw [decide_eq_decide, Option.map_eq_some_iff]
  constructor
  · rintro ⟨y, hy, e⟩
    rw [hy, hf y x (hP bs y hy) hx e]
  · intro h
    exact ⟨x, h, rfl⟩

theorem unguessable_render {gen : Str → Option Str} {P : Str → Prop} {f : Str → Str} {K : Nat} (hP : ∀ bs x, gen bs = some x → P x)
    (hf : ∀ x y, P x → P y → f x = f y → x = y) (h : Unguessable gen K) : Unguessable (fun bs => (gen bs).map f) K := by
  intro N guess
  by_cases hx : ∃ x, P x ∧ f x = guess
  · obtain ⟨x, hx, rfl⟩ := hx
    rw [outcomes_render hP hf N hx]
    exact h N x
  · have : outcomes (fun bs => (gen bs).map f) N guess = 0 := by
      rw [outcomes, List.countP_eq_zero]
      intro bs _
      simp only [decide_eq_true_eq, Option.map_eq_some_iff]
      rintro ⟨x, h1, h2⟩
      exact hx ⟨x, hP bs x h1, h2⟩
    rw [this]
    simp

theorem newLenChars_out {p : Policy} {n : Nat} {chars : Str} (h0 : chars ≠ []) {bs x : Str} (h : (newLenChars p n chars bs).map Prod.fst = some x) :
    x.length = n ∧ ∀ c ∈ x, c ∈ chars := by
  obtain ⟨⟨y, r⟩, hy, rfl⟩ := Option.map_eq_some_iff.1 h
  exact fill_chars h0 _ _ _ _ _ hy

theorem unguessable_chars {chars : Str} (hn : chars.Nodup) (h256 : chars.length ≤ 256) (h0 : chars ≠ []) (p : Policy) (n : Nat) :
    Unguessable (fun bs => (newLenChars p n chars bs).map Prod.fst) (chars.length ^ n) := by
  intro N guess
  rw [outcomes_map]
  have := gives_bound hn h256 h0 (p chars.length n) (fun _ => true) 1 one_bound N n 0 guess
  rwa [Nat.mul_one] at this

theorem uniform_chars {chars : Str} (hn : chars.Nodup) (h256 : chars.length ≤ 256) (p : Policy) (n : Nat) :
    Uniform (fun bs => (newLenChars p n chars bs).map Prod.fst) (fun x => x.length = n ∧ ∀ c ∈ x, c ∈ chars) := by
  intro N x y hx hy
  rw [outcomes_map, outcomes_map]
  exact gives_uniform hn h256 _ _ N n 0 x y hx.1 hy.1 hx.2 hy.2

/-! ### The exact number -/

def ways (m : Nat) (buf : Nat → Nat) : Nat → Nat → Nat → Nat
  | N, 0, left => if N < left then 0 else 256 ^ N
  | 0, _ + 1, _ => 0
  | N + 1, n + 1, left => 256 % m * ways m buf N (n + 1) (next buf (n + 1) left) + 256 / m * ways m buf N n (next buf (n + 1) left)

theorem cnt_true (N : Nat) : cnt (fun _ => true) N = 256 ^ N := by
  rw [← length_streams, cnt]
  simp

theorem cnt_ways {chars : Str} (hn : chars.Nodup) (h256 : chars.length ≤ 256) (buf : Nat → Nat) : ∀ N n left (x : Str), x.length = n →
    (∀ c ∈ x, c ∈ chars) → cnt (gives chars buf n left x fun _ => true) N = ways chars.length buf N n left := by
  have base : ∀ N left, cnt (gives chars buf 0 left [] fun _ => true) N = ways chars.length buf N 0 left := by
    intro N left
    have e : (gives chars buf 0 left [] fun _ => true) = fun bs => (decide (left ≤ bs.length) &&
        (fun _ => true) (bs.drop left)) := funext (gives_zero chars buf left _)
    rw [e, cnt_drop (fun _ => true), cnt_true]
    unfold ways
    split
    · rfl
    · rename_i h
      rw [← Nat.pow_add, Nat.add_sub_cancel' (Nat.not_lt.1 h)]
  intro N
  induction N with
  | zero =>
    intro n left x hx hm
    cases n with
    | zero => rw [List.length_eq_zero_iff.1 hx]; exact base 0 left
    | succ n => rw [gives_nil]; rfl
  | succ N ih =>
    intro n left x hx hm
    cases n with
    | zero => rw [List.length_eq_zero_iff.1 hx]; exact base _ left
    | succ n =>
      obtain ⟨a, x, rfl⟩ : ∃ a x', x = a :: x' := by cases x with | nil => simp at hx | cons a x => exact ⟨a, x, rfl⟩
      rw [cnt_gives_succ hn h256 buf n left (hm a (by simp)), ih (n + 1) (next buf (n + 1) left) (a :: x) hx hm,
        ih n (next buf (n + 1) left) x (by simpa using hx) (fun c hc => hm c (by simp [hc]))]
      rfl

end Verif.Uniuri
