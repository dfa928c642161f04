import Verif.Proofs.Json

/-!
A reader for JSON texts without escapes, numbers and letters outside ASCII; what it reads, the
text says.
-/
namespace Verif.Json
open Verif.Spec Verif.Spec.Json

def dropWs : Str → Str
  | [] => []
  | b :: t => if isWs b then dropWs t else b :: t

theorem dropWs_ws : ∀ t : Str, ∃ w, Ws w ∧ t = w ++ dropWs t
  | [] => ⟨[], ws_nil, rfl⟩
  | b :: t => by
    unfold dropWs
    cases h : isWs b
    · exact ⟨[], ws_nil, rfl⟩
    · obtain ⟨w, hw, ht⟩ := dropWs_ws t
      refine ⟨b :: w, ?_, by simp [← ht]⟩
      intro x hx
      rcases List.mem_cons.1 hx with rfl | hx
      · simpa [isWs, or_assoc] using h
      · exact hw x hx

/-- Up to the next quotation mark. -/
def readChars : Str → Option (Str × Str)
  | [] => none
  | b :: t =>
    if b = 34 then some ([], t)
    else if 32 ≤ b ∧ b < 0x80 ∧ b ≠ 92 then (readChars t).map fun (s, r) => (b :: s, r)
    else none

theorem readChars_sound : ∀ {t s r : Str}, readChars t = some (s, r) → t = s ++ 34 :: r ∧ Go.Ascii s ∧ Chars (reading s) s
  | [], _, _, h => by cases h
  | b :: t, s, r, h => by
    unfold readChars at h
    split at h
    · rename_i hb
      simp only [Option.some.injEq, Prod.mk.injEq] at h
      obtain ⟨rfl, rfl⟩ := h
      exact ⟨by simp [hb], fun _ h => absurd h (by simp), .nil⟩
    · rename_i hb
      split at h
      · rename_i hc
        cases ht : readChars t with
        | none => rw [ht] at h; cases h
        | some q =>
          rw [ht] at h
          simp only [Option.map_some, Option.some.injEq, Prod.mk.injEq] at h
          obtain ⟨rfl, rfl⟩ := h
          obtain ⟨h1, h2, h3⟩ := readChars_sound ht
          have ha : Go.Ascii (b :: q.1) := by
            intro x hx
            rcases List.mem_cons.1 hx with rfl | hx
            · exact hc.2.1
            · exact h2 x hx
          refine ⟨by simp [← h1], ha, ?_⟩
          have := chars_plain hc.2.1 hc.1 hb hc.2.2 h3
          unfold reading at this ⊢
          rw [Go.runes_ascii ha, List.map_cons, List.flatMap_cons, ← Go.runes_ascii h2]
          exact this
      · cases h

mutual
def readValue : Nat → Str → Option (Datum × Str)
  | 0, _ => none
  | n + 1, t =>
    match t with
    | 34 :: t => (readChars t).map fun (s, r) => (.str s, r)
    | 91 :: t => (readElements n t).map fun (l, r) => (.arr l, r)
    | 123 :: t => (readMembers n t).map fun (l, r) => (.obj l, r)
    | _ => none

/-- The elements of an array that is not empty, and its end. -/
def readElements : Nat → Str → Option (List Datum × Str)
  | 0, _ => none
  | n + 1, t =>
    match readValue n (dropWs t) with
    | none => none
    | some (d, r) =>
      match dropWs r with
      | 44 :: r => (readElements n r).map fun (l, r) => (d :: l, r)
      | 93 :: r => some ([d], r)
      | _ => none

/-- The members of an object that is not empty, and its end. -/
def readMembers : Nat → Str → Option (List (Str × Datum) × Str)
  | 0, _ => none
  | n + 1, t =>
    match dropWs t with
    | 34 :: t =>
      match readChars t with
      | none => none
      | some (k, r) =>
        match dropWs r with
        | 58 :: r =>
          match readValue n (dropWs r) with
          | none => none
          | some (d, r) =>
            match dropWs r with
            | 44 :: r => (readMembers n r).map fun (l, r) => ((k, d) :: l, r)
            | 125 :: r => some ([(k, d)], r)
            | _ => none
        | _ => none
    | _ => none
end

theorem read_sound : ∀ n : Nat,
    (∀ {t r d}, readValue n t = some (d, r) → ∃ x v, t = x ++ r ∧ Written v x ∧ Means d v) ∧
    (∀ {t r l}, readElements n t = some (l, r) → ∃ x vs, t = x ++ 93 :: r ∧ Elements vs x ∧ MeansAll l vs) ∧
    (∀ {t r l}, readMembers n t = some (l, r) → ∃ x ms, t = x ++ 125 :: r ∧ Members ms x ∧ MeansFields l ms)
  | 0 => ⟨fun h => by simp [readValue] at h, fun h => by simp [readElements] at h, fun h => by simp [readMembers] at h⟩
  | n + 1 => by
    obtain ⟨ih1, ih2, ih3⟩ := read_sound n
    refine ⟨fun {t r d} h => ?_, fun {t r l} h => ?_, fun {t r l} h => ?_⟩
    · unfold readValue at h
      split at h
      · rename_i t
        cases hq : readChars t with
        | none => rw [hq] at h; cases h
        | some q =>
          rw [hq] at h
          simp only [Option.map_some, Option.some.injEq, Prod.mk.injEq] at h
          obtain ⟨rfl, rfl⟩ := h
          obtain ⟨rfl, -, hc⟩ := readChars_sound hq
          exact ⟨34 :: q.1 ++ [34], _, by simp, .str hc, .str⟩
      · rename_i t
        cases hq : readElements n t with
        | none => rw [hq] at h; cases h
        | some q =>
          rw [hq] at h
          simp only [Option.map_some, Option.some.injEq, Prod.mk.injEq] at h
          obtain ⟨rfl, rfl⟩ := h
          obtain ⟨x, vs, rfl, hx, hm⟩ := ih2 hq
          exact ⟨91 :: x ++ [93], _, by simp, .arr hx, .arr hm⟩
      · rename_i t
        cases hq : readMembers n t with
        | none => rw [hq] at h; cases h
        | some q =>
          rw [hq] at h
          simp only [Option.map_some, Option.some.injEq, Prod.mk.injEq] at h
          obtain ⟨rfl, rfl⟩ := h
          obtain ⟨x, vs, rfl, hx, hm⟩ := ih3 hq
          exact ⟨123 :: x ++ [125], _, by simp, .obj hx, .obj hm⟩
      · cases h
    · unfold readElements at h
      obtain ⟨w, hw, hwt⟩ := dropWs_ws t
      cases hq : readValue n (dropWs t) with
      | none => rw [hq] at h; cases h
      | some q =>
        rw [hq] at h
        simp only at h
        obtain ⟨x, v, hx, hv, hm⟩ := ih1 hq
        obtain ⟨w', hw', hwr⟩ := dropWs_ws q.2
        split at h
        · rename_i r' hr'
          cases hl : readElements n r' with
          | none => rw [hl] at h; cases h
          | some q' =>
            rw [hl] at h
            simp only [Option.map_some, Option.some.injEq, Prod.mk.injEq] at h
            obtain ⟨rfl, rfl⟩ := h
            obtain ⟨y, vs, hy, hvs, hms⟩ := ih2 hl
            refine ⟨w ++ x ++ w' ++ 44 :: y, v :: vs, ?_, .more hw hv hw' hvs, .cons hm hms⟩
            rw [hwt, hx, hwr, hr', hy]
            simp
        · rename_i r' hr'
          simp only [Option.some.injEq, Prod.mk.injEq] at h
          obtain ⟨rfl, rfl⟩ := h
          refine ⟨w ++ x ++ w', [v], ?_, .one hw hv hw', .cons hm .nil⟩
          rw [hwt, hx, hwr, hr']
          simp
        · cases h
    · unfold readMembers at h
      obtain ⟨w1, hw1, hwt⟩ := dropWs_ws t
      split at h
      · rename_i t1 ht1
        cases hk : readChars t1 with
        | none => rw [hk] at h; cases h
        | some k =>
          rw [hk] at h
          simp only at h
          obtain ⟨hk1, -, hk2⟩ := readChars_sound hk
          obtain ⟨w2, hw2, hwr⟩ := dropWs_ws k.2
          split at h
          · rename_i t2 ht2
            obtain ⟨w3, hw3, hwt2⟩ := dropWs_ws t2
            cases hq : readValue n (dropWs t2) with
            | none => rw [hq] at h; cases h
            | some q =>
              rw [hq] at h
              simp only at h
              obtain ⟨x, v, hx, hv, hm⟩ := ih1 hq
              obtain ⟨w4, hw4, hwq⟩ := dropWs_ws q.2
              split at h
              · rename_i r' hr'
                cases hl : readMembers n r' with
                | none => rw [hl] at h; cases h
                | some q' =>
                  rw [hl] at h
                  simp only [Option.map_some, Option.some.injEq, Prod.mk.injEq] at h
                  obtain ⟨rfl, rfl⟩ := h
                  obtain ⟨y, ms, hy, hms, hmm⟩ := ih3 hl
                  refine ⟨_, _, ?_, .more hw1 hk2 hw2 hw3 hv hw4 hms, .cons hm hmm⟩
                  rw [hwt, ht1, hk1, hwr, ht2, hwt2, hx, hwq, hr', hy]
                  simp
              · rename_i r' hr'
                simp only [Option.some.injEq, Prod.mk.injEq] at h
                obtain ⟨rfl, rfl⟩ := h
                refine ⟨_, _, ?_, .one hw1 hk2 hw2 hw3 hv hw4, .cons hm .nil⟩
                rw [hwt, ht1, hk1, hwr, ht2, hwt2, hx, hwq, hr']
                simp
              · cases h
          · cases h
      · cases h

/-- The datum of a text. -/
def readText (t : Str) : Option Datum :=
  match readValue (t.length + 1) (dropWs t) with
  | some (d, r) => if dropWs r = [] then some d else none
  | none => none

theorem readText_says {t : Str} {d : Datum} (h : readText t = some d) : Says t d := by
  unfold readText at h
  cases hq : readValue (t.length + 1) (dropWs t) with
  | none => rw [hq] at h; cases h
  | some q =>
    rw [hq] at h
    simp only at h
    split at h
    · rename_i he
      cases h
      obtain ⟨x, v, hx, hv, hm⟩ := (read_sound _).1 hq
      obtain ⟨w, hw, hwt⟩ := dropWs_ws t
      obtain ⟨w', hw', hwr⟩ := dropWs_ws q.2
      rw [he, List.append_nil] at hwr
      exact ⟨v, ⟨w, x, w', hw, hv, hw', by rw [List.append_assoc, ← hwr, ← hx, ← hwt]⟩, hm⟩
    · cases h

end Verif.Json
