import Verif.Proofs.Uniuri
import Verif.Props.Lib

/-! How hard it is to guess what the generators produce. -/
namespace Verif.Props
open Verif.Spec Verif.Lib Verif.Uniuri

def alnum62 : Str := g!"ABCDEFGHIJKLMNOPQRSTUVWXYZabcdefghijklmnopqrstuvwxyz0123456789"

/-- **C98** (counting). `streams N` has each string of `N` bytes once, so the chance of an event is the number of its strings
divided by `256 ^ N`. -/
theorem C98_counting (N : Nat) : (∀ bs, bs ∈ streams N ↔ bs.length = N) ∧ (streams N).Nodup ∧ (streams N).length = 256 ^ N :=
  ⟨fun _ => mem_streams, nodup_streams N, length_streams N⟩

/-- **C98** (codes). Authorization codes, device codes and request URIs: all alphanumeric strings of 32 characters are equally
likely, and the chance of any guess is below one in 2^190; RFC 6749 section 10.10 demands 2^128 and recommends 2^160. -/
theorem C98_codes (p : Policy) : Uniform (code32 p) (fun x => x.length = 32 ∧ ∀ c ∈ x, c ∈ alnum62) ∧ Unguessable (code32 p) (62 ^ 32) ∧
    Unguessable (code32 p) (2 ^ 190) := by
  have h : Unguessable (code32 p) (62 ^ 32) := unguessable_chars (chars := stdChars) (by decide) (by decide) (by decide) p 32
  exact ⟨uniform_chars (chars := stdChars) (by decide) (by decide) p 32, h,
    fun N g => Nat.le_trans (Nat.mul_le_mul_left _ (by decide)) (h N g)⟩

/-- **C98** (opaque tokens). The chance of any guess is below one in 2^184. -/
theorem C98_opaque (p : Policy) : Unguessable (opaqueToken p) (62 ^ 31) ∧ Unguessable (opaqueToken p) (2 ^ 184) ∧
    ∀ bs x, opaqueToken p bs = some x → ∃ a b, x = a ++ g!"." ++ b ∧ a.length = 3 ∧ b.length = 28 ∧ ∀ c ∈ a ++ b, c ∈ alnum62 := by
  have h : Unguessable (opaqueToken p) (62 ^ 31) := by
    intro N guess
    let F : Str → Bool := gives stdChars (p 62 28) 28 0 (guess.drop 4) fun _ => true
    have hF : ∀ N, cnt F N * 62 ^ 28 ≤ 256 ^ N := by
      intro N
      have := gives_bound (chars := stdChars) (by decide) (by decide) (by decide) (p 62 28) (fun _ => true) 1 one_bound N 28 0 (guess.drop 4)
      rw [Nat.mul_one] at this
      exact this
    have hG := gives_bound (chars := stdChars) (by decide) (by decide) (by decide) (p 62 3) F (62 ^ 28) hF N 3 0 (guess.take 3)
    have hle : outcomes (opaqueToken p) N guess ≤ cnt (gives stdChars (p 62 3) 3 0 (guess.take 3) F) N := by
      unfold outcomes cnt
      apply List.countP_mono_left
      intro bs _ hbs
      have hbs : opaqueToken p bs = some guess := by simpa using hbs
      obtain ⟨⟨a, r⟩, h1, h2⟩ := Option.bind_eq_some_iff.1 hbs
      obtain ⟨⟨b, r'⟩, h3, h4⟩ := Option.map_eq_some_iff.1 h2
      dsimp only at h3 h4
      have ha := (fill_chars (by decide) _ _ _ _ _ h1).1
      have e1 : guess.take 3 = a := by rw [← h4, List.append_assoc, ← ha, List.take_left]
      have e2 : guess.drop 4 = b := by
        have : (a ++ g!".").length = 4 := by simp [ha]
        rw [← h4, ← this, List.drop_left]
      have h1 : fill stdChars (p 62 3) 3 0 bs = some (a, r) := h1
      have h3 : fill stdChars (p 62 28) 28 0 r = some (b, r') := h3
      simp only [gives, h1, e1, F, e2, h3, decide_true, Bool.and_self]
    refine Nat.le_trans (Nat.mul_le_mul_right _ hle) ?_
    have e : (62 : Nat) ^ 31 = stdChars.length ^ 3 * 62 ^ 28 := by decide +kernel
    rw [e]
    exact hG
  refine ⟨h, fun N g => Nat.le_trans (Nat.mul_le_mul_left _ (by decide)) (h N g), fun bs x hx => ?_⟩
  obtain ⟨⟨a, r⟩, h1, h2⟩ := Option.bind_eq_some_iff.1 hx
  obtain ⟨⟨b, r'⟩, h3, h4⟩ := Option.map_eq_some_iff.1 h2
  obtain ⟨a1, a2⟩ := fill_chars (by decide) _ _ _ _ _ h1
  obtain ⟨b1, b2⟩ := fill_chars (by decide) _ _ _ _ _ h3
  refine ⟨a, b, h4.symm, a1, b1, fun c hc => ?_⟩
  rcases List.mem_append.1 hc with hc | hc
  · exact a2 c hc
  · exact b2 c hc

theorem renderAlpha_inj (x y : Str) (hx : x.length = 8 ∧ ∀ c ∈ x, c ∈ alphaChars) (hy : y.length = 8 ∧ ∀ c ∈ y, c ∈ alphaChars)
    (h : x.take 4 ++ g!"-" ++ x.drop 4 = y.take 4 ++ g!"-" ++ y.drop 4) : x = y := by
  have h1 := List.append_inj h (by simp [hx.1, hy.1])
  have h2 := List.append_inj h1.1 (by simp [hx.1, hy.1])
  rw [← List.take_append_drop 4 x, h2.1, h1.2, List.take_append_drop]

theorem renderNum_inj (x y : Str) (hx : x.length = 9 ∧ ∀ c ∈ x, c ∈ numChars) (hy : y.length = 9 ∧ ∀ c ∈ y, c ∈ numChars)
    (h : x.take 3 ++ g!"-" ++ (x.drop 3).take 3 ++ g!"-" ++ x.drop 6 = y.take 3 ++ g!"-" ++ (y.drop 3).take 3 ++ g!"-" ++ y.drop 6) :
    x = y := by
  have h1 := List.append_inj h (by simp [hx.1, hy.1])
  have h2 := List.append_inj h1.1 (by simp [hx.1, hy.1])
  have h3 := List.append_inj h2.1 (by simp [hx.1, hy.1])
  have h4 := List.append_inj h3.1 (by simp [hx.1, hy.1])
  have e : ∀ z : Str, z = z.take 3 ++ ((z.drop 3).take 3 ++ z.drop 6) := by
    intro z
    have := List.take_append_drop 3 (z.drop 3)
    rw [List.drop_drop] at this
    rw [this, List.take_append_drop]
  rw [e x, e y, h4.1, h3.2, h1.2]

/-- **C98** (user codes). All codes of eight letters, or nine digits, are equally likely: the chance of a guess is one in
25 600 000 000 at most, or one in 1 000 000 000. -/
theorem C98_user_codes (p : Policy) : Unguessable (userAlpha p) (20 ^ 8) ∧ Unguessable (userNum p) (10 ^ 9) ∧
    Uniform (userAlpha p) (fun s => ∃ a b, s = a ++ g!"-" ++ b ∧ a.length = 4 ∧ b.length = 4 ∧ ∀ c ∈ a ++ b, c ∈ g!"BCDFGHJKLMNPQRSTVWXZ") := by
  have ha : ∀ bs, userAlpha p bs = ((newLenChars p 8 alphaChars bs).map Prod.fst).map fun x => x.take 4 ++ g!"-" ++ x.drop 4 := by
    intro bs
    rw [Option.map_map]
    rfl
  have hnum : ∀ bs, userNum p bs = ((newLenChars p 9 numChars bs).map Prod.fst).map fun x =>
      x.take 3 ++ g!"-" ++ (x.drop 3).take 3 ++ g!"-" ++ x.drop 6 := by
    intro bs
    rw [Option.map_map]
    rfl
  rw [funext ha, funext hnum]
  refine ⟨?_, ?_, ?_⟩
  · exact unguessable_render (fun bs x h => newLenChars_out (by decide) h) renderAlpha_inj
      (unguessable_chars (chars := alphaChars) (by decide) (by decide) (by decide) p 8)
  · exact unguessable_render (fun bs x h => newLenChars_out (by decide) h) renderNum_inj
      (unguessable_chars (chars := numChars) (by decide) (by decide) (by decide) p 9)
  · have key : ∀ a b : Str, a.length = 4 → b.length = 4 → (∀ c ∈ a ++ b, c ∈ g!"BCDFGHJKLMNPQRSTVWXZ") →
        ((a ++ b).length = 8 ∧ ∀ c ∈ a ++ b, c ∈ alphaChars) ∧
        a ++ g!"-" ++ b = (a ++ b).take 4 ++ g!"-" ++ (a ++ b).drop 4 := by
      intro a b h1 h2 h3
      refine ⟨⟨by simp [h1, h2], h3⟩, ?_⟩
      rw [← h1, List.take_left, List.drop_left]
    rintro N x y ⟨a, b, rfl, h1, h2, h3⟩ ⟨a', b', rfl, h1', h2', h3'⟩
    obtain ⟨k1, k2⟩ := key a b h1 h2 h3
    obtain ⟨k1', k2'⟩ := key a' b' h1' h2' h3'
    rw [k2, k2', outcomes_render (fun bs x h => newLenChars_out (by decide) h) renderAlpha_inj N k1,
      outcomes_render (fun bs x h => newLenChars_out (by decide) h) renderAlpha_inj N k1']
    exact uniform_chars (chars := alphaChars) (by decide) (by decide) p 8 N _ _ k1 k1'

/-- **C98** (identifiers of proofs and clients). -/
theorem C98_ids (p : Policy) : Unguessable (id16 p) (62 ^ 16) ∧ Unguessable (id16 p) (2 ^ 95) ∧ Unguessable (jti8 p) (62 ^ 8) := by
  have h : Unguessable (id16 p) (62 ^ 16) := unguessable_chars (chars := stdChars) (by decide) (by decide) (by decide) p 16
  exact ⟨h, fun N g => Nat.le_trans (Nat.mul_le_mul_left _ (by decide)) (h N g),
    unguessable_chars (chars := stdChars) (by decide) (by decide) (by decide) p 8⟩

/-- **C98_jti_violated.** The identifier of a DPoP proof has less than the 96 bits of RFC 9449 section 4.2, and those of
assertions and tokens less than 48. -/
theorem C98_jti_violated : ¬ Unguessable (id16 sizes) (2 ^ 96) ∧ ¬ Unguessable (jti8 sizes) (2 ^ 48) := by
  constructor
  · intro h
    have h := h 17 (List.replicate 16 65)
    have e : outcomes (id16 sizes) 17 (List.replicate 16 65) = ways 62 (sizes 62 16) 17 16 0 :=
      (outcomes_map sizes stdChars 16 17 _).trans (cnt_ways (chars := stdChars) (by decide) (by decide) _ 17 16 0 _ (by decide) (by decide))
    rw [e] at h
    exact absurd h (by decide +kernel)
  · intro h
    have h := h 9 (List.replicate 8 65)
    have e : outcomes (jti8 sizes) 9 (List.replicate 8 65) = ways 62 (sizes 62 8) 9 8 0 :=
      (outcomes_map sizes stdChars 8 9 _).trans (cnt_ways (chars := stdChars) (by decide) (by decide) _ 9 8 0 _ (by decide) (by decide))
    rw [e] at h
    exact absurd h (by decide +kernel)

/-- **C98** (refinement). What is produced from bytes is produced by the generators of C17, C56 and C58. -/
theorem C98_refines (p : Policy) (bs x : Str) (h : code32 p bs = some x) : ∃ rnd, x = genCode32 rnd := by
  obtain ⟨h1, h2⟩ := newLenChars_out (chars := stdChars) (by decide) h
  refine ⟨fun i => stdChars.idxOf (x.getD i 0), ?_⟩
  apply List.ext_getElem
  · rw [h1]; exact (Verif.Lib.newLenChars_length ..).symm
  · intro i hi hi'
    have hm : x[i] ∈ stdChars := h2 _ (List.getElem_mem hi)
    have hlt := List.idxOf_lt_length_of_mem hm
    simp only [genCode32, Verif.Lib.newLenChars, List.getElem_map, List.getElem_range]
    have e : x.getD i 0 = x[i] := by simp [List.getD_eq_getElem?_getD, hi]
    rw [e, Nat.mod_eq_of_lt hlt, List.getD_eq_getElem?_getD, List.getElem?_eq_getElem hlt, Option.getD_some, List.getElem_idxOf hlt]

/-- The generators do produce something. -/
example : code32 sizes (List.replicate 34 0) = some (List.replicate 32 65) ∧
    id16 sizes (List.replicate 4 255 ++ List.replicate 29 61) = some (List.replicate 16 57) ∧
    id16 sizes (List.replicate 4 255 ++ List.replicate 28 61) = none ∧ userAlpha sizes (List.replicate 10 1) = some g!"CCCC-CCCC" ∧
    opaqueToken sizes (List.replicate 38 25) = some (g!"ZZZ." ++ List.replicate 28 90) := by decide +kernel

end Verif.Props
