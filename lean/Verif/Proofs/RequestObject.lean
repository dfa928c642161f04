import Verif.Spec.RequestObject
import Verif.Proofs.ClientAuth

/-! Decoding and encoding of request objects. -/
namespace Verif.RequestObject
open Verif.Spec

theorem mem_all (p : Param) : p ∈ Param.all := by cases p <;> decide

theorem paramOf_proto (p : Param) : paramOf p.proto = some p := by cases p <;> decide

theorem paramOf_json (p : Param) : paramOf p.json = some p := by cases p <;> decide

theorem names_iff {k : Str} {p : Param} : Names k p ↔ k = p.proto ∨ k = p.json := by cases p <;> exact Iff.rfl

theorem paramOf_iff {k : Str} {p : Param} : paramOf k = some p ↔ Names k p := by
  rw [names_iff]
  constructor
  · intro h
    have := List.find?_some h
    simp only [decide_eq_true_eq] at this
    exact this.elim (fun h => .inr h.symm) (fun h => .inl h.symm)
  · rintro (rfl | rfl)
    · exact paramOf_proto p
    · exact paramOf_json p

theorem names_unique {k : Str} {p q : Param} (h : Names k p) (h' : Names k q) : p = q := by
  have := (paramOf_iff.2 h).symm.trans (paramOf_iff.2 h')
  simpa using this

theorem map_str_inj {l l' : List Str} (h : l.map JVal.str = l'.map JVal.str) : l = l' :=
  List.map_inj_right (fun _ _ h => by simpa using h) |>.1 h

/-- A request is determined by the values of its parameters. -/
theorem value_ext {r r' : AuthzRequest} (h : ∀ p, value r p = value r' p) : r = r' := by
  have ho : ∀ {a b : Option Str}, opt a = opt b → a = b := by
    intro a b; cases a <;> cases b <;> simp [opt]
  have hn : ∀ {a b : Option Nat}, (a.map JVal.num).getD .null = (b.map JVal.num).getD .null → a = b := by
    intro a b; cases a <;> cases b <;> simp
  have hs : ∀ {a b : Str}, JVal.str a = .str b → a = b := by intro a b h; simpa using h
  cases r; cases r'
  congr 1
  · exact hs (h .scope)
  · exact hs (h .responseType)
  · exact hs (h .clientId)
  · exact hs (h .redirectUri)
  · exact hs (h .state)
  · exact ho (h .responseMode)
  · exact hs (h .nonce)
  · exact ho (h .display)
  · exact ho (h .prompt)
  · exact hn (h .maxAge)
  · exact ho (h .uiLocales)
  · exact ho (h .idTokenHint)
  · exact ho (h .acrValues)
  · exact ho (h .request)
  · exact ho (h .requestUri)
  · exact hs (h .codeChallenge)
  · exact hs (h .codeChallengeMethod)
  · exact hs (h .audience)
  · exact ho (h .dpopProof)
  · have := h .resource
    simp only [value, JVal.arr.injEq] at this
    exact map_str_inj this
  · exact ho (h .iss)
  · exact ho (h .loginHintToken)
  · exact ho (h .loginHint)

theorem string?_iff {v : JVal} {s : Str} : string? v = some s ↔ v = .str s := by
  cases v <;> simp [string?]

theorem strings?_iff {v : JVal} {l : List Str} : strings? v = some l ↔ v = .arr (l.map .str) := by
  cases v <;> simp only [strings?, reduceCtorEq, JVal.arr.injEq]
  rename_i a
  induction a generalizing l with
  | nil => cases l <;> simp
  | cons x a ih =>
    simp only [List.mapM_cons, Option.pure_def, Option.bind_eq_bind, Option.bind_eq_some_iff, string?_iff]
    constructor
    · rintro ⟨s, rfl, l', h, h'⟩
      simp only [Option.some.injEq] at h'; subst h'
      simp [ih.1 h]
    · cases l with
      | nil => simp
      | cons s l' =>
        simp only [List.map_cons, List.cons.injEq]
        rintro ⟨rfl, h⟩
        exact ⟨s, rfl, l', ih.2 h, rfl⟩

theorem plain_iff {s : Str} : plain s = true ↔ ∃ n, Decimal s n := by
  simp only [plain, Decimal, Bool.and_eq_true, Bool.or_eq_true, decide_eq_true_eq, List.all_eq_true, isDigit]
  constructor
  · rintro ⟨⟨h1, h2⟩, h3⟩; exact ⟨_, h1, h2, h3, rfl⟩
  · rintro ⟨n, h1, h2, h3, -⟩; exact ⟨⟨h1, h2⟩, h3⟩

theorem decimal_numOf {s : Str} {n : Nat} (h : Decimal s n) : n = numOf s := h.2.2.2

theorem uint_iff {ex : Str → Option Nat} {v : JVal} {n : Nat} : uint ex v = some n ↔ Number ex v n := by
  constructor
  · intro h
    unfold uint at h
    split at h
    · split at h
      · rename_i hn; cases h; exact .num hn
      · cases h
    · split at h
      · rename_i hp
        split at h
        · rename_i hn
          cases h
          obtain ⟨k, hk⟩ := plain_iff.1 hp
          exact .text (decimal_numOf hk ▸ hk) hn
        · cases h
      · rename_i hp
        exact .other (fun k hk => hp (plain_iff.2 ⟨k, hk⟩)) h
    · cases h
  · intro h
    cases h with
    | num h => simp only [uint, h, if_true]
    | text h1 h2 =>
      rw [decimal_numOf h1] at h2 ⊢
      simp only [uint, plain_iff.2 ⟨_, h1⟩, h2, if_true]
    | other h1 h2 =>
      have : ¬ plain _ = true := fun hp => absurd (plain_iff.1 hp) (fun ⟨k, hk⟩ => h1 k hk)
      simp only [uint, this, h2]
      simp

theorem set_null (ex : Str → Option Nat) (r : AuthzRequest) (p : Param) : set ex r p .null = some r := by
  cases p <;> rfl

/-- Setting a field. -/
theorem set_means {ex : Str → Option Nat} {r r' : AuthzRequest} {p : Param} {v : JVal} (hv : v ≠ .null)
    (h : set ex r p v = some r') : Means ex p v (value r' p) ∧ ∀ q, q ≠ p → value r' q = value r q := by
  have key : ∀ {α : Type} {o : Option α} {f : α → AuthzRequest}, o.map f = some r' → ∃ a, o = some a ∧ r' = f a := by
    intro α o f h
    cases o with
    | none => simp at h
    | some a => simp at h; exact ⟨a, rfl, h.symm⟩
  cases p <;> simp only [set] at h <;>
    (obtain ⟨a, h1, rfl⟩ := key h) <;>
    (refine ⟨?_, by intro q hq; cases q <;> first | rfl | exact absurd rfl hq⟩) <;>
    first
    | (rw [string?_iff] at h1; exact ⟨a, h1, h1.symm⟩)
    | (rw [strings?_iff] at h1; exact ⟨a, h1, h1.symm⟩)
    | exact ⟨a, uint_iff.1 h1, rfl⟩

theorem means_set {ex : Str → Option Nat} (r : AuthzRequest) {p : Param} {v w : JVal}
    (h : Means ex p v w) : ∃ r', set ex r p v = some r' ∧ value r' p = w := by
  cases p
  case maxAge =>
    obtain ⟨n, h1, rfl⟩ := h
    rw [← uint_iff] at h1
    refine ⟨{ r with maxAge := some n }, ?_, rfl⟩
    have hv : v ≠ .null := by rintro rfl; simp [uint] at h1
    cases v <;> first | exact absurd rfl hv | simp only [set, h1, Option.map_some]
  case resource =>
    obtain ⟨l, rfl, rfl⟩ := h
    refine ⟨_, by simp only [set, strings?_iff.2 rfl, Option.map_some]; rfl, rfl⟩
  all_goals
    obtain ⟨s, rfl, rfl⟩ := h
    exact ⟨_, rfl, rfl⟩

/-- The members of an object, starting from a request and the fields set before. -/
theorem members_iff {ex : Str → Option Nat} {m : List (Str × JVal)} : ∀ {seen : List Param} {r r' : AuthzRequest},
    members ex seen r m = some r' ↔
      (∀ k v, (k, v) ∈ m → ∃ p, Names k p) ∧ (∀ k v p, (k, v) ∈ m → Names k p → p ∉ seen) ∧
      (m.Pairwise fun a b => ∀ p, Names a.1 p → ¬ Names b.1 p) ∧
      (∀ k v p, (k, v) ∈ m → Names k p → v ≠ .null → Means ex p v (value r' p)) ∧
      (∀ p, (∀ k v, (k, v) ∈ m → Names k p → v = .null) → value r' p = value r p) := by
  induction m with
  | nil =>
    intro seen r r'
    simp only [members, Option.some.injEq, List.not_mem_nil, List.Pairwise.nil, true_and, false_imp_iff, implies_true]
    exact ⟨fun h => by simp [h], fun h => (value_ext fun p => h p trivial).symm⟩
  | cons kv m ih =>
    obtain ⟨k, v⟩ := kv
    intro seen r r'
    simp only [members]
    cases hp : paramOf k with
    | none =>
      simp only [reduceCtorEq, false_iff]
      rintro ⟨h, -⟩
      obtain ⟨p, h⟩ := h k v (by simp)
      rw [paramOf_iff.2 h] at hp; simp at hp
    | some p =>
      have hk := paramOf_iff.1 hp
      simp only
      by_cases hs : p ∈ seen
      · simp only [hs, if_true, reduceCtorEq, false_iff]
        rintro ⟨-, h, -⟩
        exact h k v p (by simp) hk hs
      simp only [hs, if_false]
      rw [Option.bind_eq_some_iff]
      simp only [ih]
      constructor
      · rintro ⟨r1, h0, h1, h2, h3, h4, h5⟩
        have hval : value r' p = value r1 p := by
          refine h5 p fun k' v' hm hn => ?_
          exact absurd (List.mem_cons_self ..) (h2 k' v' p hm hn)
        refine ⟨?_, ?_, ?_, ?_, ?_⟩
        · intro k' v' hm
          rcases List.mem_cons.1 hm with hm | hm
          · cases hm; exact ⟨p, hk⟩
          · exact h1 k' v' hm
        · intro k' v' q hm hn
          rcases List.mem_cons.1 hm with hm | hm
          · cases hm; rw [names_unique hn hk]; exact hs
          · exact fun h => h2 k' v' q hm hn (List.mem_cons_of_mem _ h)
        · refine List.pairwise_cons.2 ⟨?_, h3⟩
          rintro ⟨k', v'⟩ hm q hq hq'
          have := names_unique hq hk
          subst this
          exact h2 k' v' q hm hq' (List.mem_cons_self ..)
        · intro k' v' q hm hn hv
          rcases List.mem_cons.1 hm with hm | hm
          · cases hm
            have := names_unique hn hk
            subst this
            rw [hval]
            exact (set_means hv h0).1
          · exact h4 k' v' q hm hn hv
        · intro q hq
          rw [h5 q fun k' v' hm => hq k' v' (List.mem_cons_of_mem _ hm)]
          by_cases hv : v = .null
          · subst hv
            rw [set_null] at h0
            simp at h0; rw [h0]
          · refine (set_means hv h0).2 q ?_
            rintro rfl
            exact hv (hq k v (List.mem_cons_self ..) hk)
      · rintro ⟨h1, h2, h3, h4, h5⟩
        have hnot : ∀ k' v' , (k', v') ∈ m → ¬ Names k' p := by
          intro k' v' hm hn
          exact (List.pairwise_cons.1 h3).1 (k', v') hm p hk hn
        have hset : ∃ r1, set ex r p v = some r1 ∧ value r1 p = value r' p ∧ ∀ q, q ≠ p → value r1 q = value r q := by
          by_cases hv : v = .null
          · subst hv
            refine ⟨r, set_null _ _ _, ?_, fun _ _ => rfl⟩
            refine (h5 p fun k' v' hm hn => ?_).symm
            rcases List.mem_cons.1 hm with hm | hm
            · cases hm; rfl
            · exact absurd hn (hnot k' v' hm)
          · obtain ⟨r1, g1, g2⟩ := means_set r (h4 k v p (List.mem_cons_self ..) hk hv)
            exact ⟨r1, g1, g2, (set_means hv g1).2⟩
        obtain ⟨r1, g1, g2, g3⟩ := hset
        refine ⟨r1, g1, fun k' v' hm => h1 k' v' (List.mem_cons_of_mem _ hm), ?_, (List.pairwise_cons.1 h3).2,
          fun k' v' q hm => h4 k' v' q (List.mem_cons_of_mem _ hm), ?_⟩
        · intro k' v' q hm hn hq
          rcases List.mem_cons.1 hq with rfl | hq
          · exact hnot k' v' hm hn
          · exact h2 k' v' q (List.mem_cons_of_mem _ hm) hn hq
        · intro q hq
          by_cases hqp : q = p
          · subst hqp; exact g2.symm
          · rw [g3 q hqp]
            refine h5 q fun k' v' hm hn => ?_
            rcases List.mem_cons.1 hm with hm | hm
            · cases hm; exact absurd (names_unique hn hk) hqp
            · exact hq k' v' hm hn

theorem decode_iff {ex : Str → Option Nat} {m : List (Str × JVal)} {r : AuthzRequest} :
    decode ex m = some r ↔ Says ex m r := by
  unfold decode
  rw [members_iff]
  constructor
  · rintro ⟨h1, -, h3, h4, h5⟩; exact ⟨h1, h3, h4, h5⟩
  · rintro ⟨h1, h3, h4, h5⟩; exact ⟨h1, by simp, h3, h4, h5⟩

/-! ### Numbers -/

theorem digits_all {k n : Nat} (b : UInt8) (h : b ∈ digits k n) : isDigit b = true := by
  have hd : ∀ d, d < 10 → isDigit (48 + d).toUInt8 = true := by decide
  induction k generalizing n with
  | zero => simp [digits] at h
  | succ k ih =>
    simp only [digits] at h
    split at h
    · rename_i hn; rw [List.mem_singleton] at h; subst h; exact hd n hn
    · rcases List.mem_append.1 h with h | h
      · exact ih h
      · rw [List.mem_singleton] at h; subst h; exact hd _ (Nat.mod_lt n (by decide : (10 : Nat) > 0))

theorem digit_val {d : Nat} (h : d < 10) : (48 + d).toUInt8.toNat - 48 = d := by
  have : ∀ d, d < 10 → (48 + d).toUInt8.toNat - 48 = d := by decide
  exact this d h

theorem numOf_digits {k n : Nat} (h : n < 10 ^ k) : numOf (digits k n) = n := by
  induction k generalizing n with
  | zero => simp at h; subst h; rfl
  | succ k ih =>
    simp only [digits]
    split
    · rename_i hn; simp only [numOf, List.foldl_cons, List.foldl_nil, digit_val hn]; omega
    · have := ih (n := n / 10) (by rw [Nat.pow_succ] at h; omega)
      unfold numOf at this ⊢
      rw [List.foldl_append, this]
      simp only [List.foldl_cons, List.foldl_nil, digit_val (Nat.mod_lt n (by decide : (10 : Nat) > 0))]
      omega

theorem digits_ne {k n : Nat} : digits (k + 1) n ≠ [] := by
  simp only [digits]; split <;> simp

theorem digits_head {k n : Nat} (h : n < 10 ^ k) : digits k n = [48] ∨ (digits k n).head? ≠ some 48 := by
  have hd : ∀ d, d < 10 → d ≠ 0 → (48 + d).toUInt8 ≠ 48 := by decide
  induction k generalizing n with
  | zero => simp [digits]
  | succ k ih =>
    simp only [digits]
    split
    · rename_i hn
      by_cases h0 : n = 0
      · subst h0; left; rfl
      · right; simp only [List.head?_cons, ne_eq, Option.some.injEq]; exact hd n hn h0
    · right
      have hlt : n / 10 < 10 ^ k := by rw [Nat.pow_succ] at h; omega
      cases k with
      | zero => simp at hlt; omega
      | succ k =>
        cases hc : digits (k + 1) (n / 10) with
        | nil => exact absurd hc digits_ne
        | cons b t =>
          rcases ih hlt with h1 | h1
          · have := numOf_digits hlt
            rw [h1] at this
            have h0 : numOf [48] = 0 := by decide
            rw [h0] at this
            omega
          · rw [hc] at h1
            simpa using h1

theorem uint_decimal {ex : Str → Option Nat} {n : Nat} (h : n < 2 ^ 64) : uint ex (.str (decimal n)) = some n := by
  have hlt : n < 10 ^ 20 := Nat.lt_of_lt_of_le h (by decide)
  have hp : plain (decimal n) = true := by
    unfold plain decimal
    simp only [Bool.and_eq_true, Bool.or_eq_true, decide_eq_true_eq]
    exact ⟨⟨digits_ne, List.all_eq_true.2 fun b hb => digits_all b hb⟩, digits_head hlt⟩
  have hv : numOf (decimal n) = n := numOf_digits hlt
  simp only [uint, hp, hv, h, if_true]

/-! ### Encoding -/

theorem mem_claims {r : AuthzRequest} {k : Str} {v : JVal} :
    (k, v) ∈ claims r ↔ ∃ p, k = p.proto ∧ wire r p = some v := by
  simp only [claims, List.mem_filterMap, Option.map_eq_some_iff, Prod.mk.injEq]
  constructor
  · rintro ⟨p, _, w, h, rfl, rfl⟩; exact ⟨p, rfl, h⟩
  · rintro ⟨p, rfl, h⟩; exact ⟨p, mem_all p, v, h, rfl, rfl⟩

theorem wire_means {ex : Str → Option Nat} {r : AuthzRequest} (hn : ∀ n, r.maxAge = some n → n < 2 ^ 64) {p : Param}
    {v : JVal} (h : wire r p = some v) : v ≠ .null ∧ Means ex p v (value r p) := by
  have h1 : ∀ {s : Str}, one s = some v → v = .str s := by
    intro s h; unfold one at h; split at h <;> simp at h; exact h.symm
  have h2 : ∀ {o : Option Str}, o.map JVal.str = some v → ∃ s, v = .str s ∧ opt o = .str s := by
    intro o h; cases o <;> simp at h; exact ⟨_, h.symm, rfl⟩
  cases p
  case maxAge =>
    simp only [wire] at h
    cases ha : r.maxAge with
    | none => rw [ha] at h; simp at h
    | some n =>
      rw [ha] at h
      simp at h
      subst h
      exact ⟨by simp, n, uint_iff.1 (uint_decimal (hn n ha)), by simp [value, ha]⟩
  case resource =>
    simp only [wire] at h
    split at h <;> simp at h
    subst h
    exact ⟨by simp, _, rfl, rfl⟩
  all_goals
    simp only [wire] at h
    first
    | (obtain rfl := h1 h; exact ⟨by simp, _, rfl, rfl⟩)
    | (obtain ⟨s, rfl, hs⟩ := h2 h; exact ⟨by simp, s, rfl, hs⟩)

theorem wire_none {r : AuthzRequest} {p : Param} (h : wire r p = none) : value r p = value {} p := by
  have h1 : ∀ {s : Str}, one s = none → s = [] := by
    intro s h; unfold one at h; split at h
    · assumption
    · simp at h
  cases p <;> simp only [wire] at h <;> first
    | (have := h1 h; simp [value, this])
    | (simp at h; simp [value, h, opt])

theorem says_claims {ex : Str → Option Nat} {r : AuthzRequest} (hn : ∀ n, r.maxAge = some n → n < 2 ^ 64)
    {m : List (Str × JVal)} (hm : m.Perm (claims r)) : Says ex m r := by
  have hproto : ∀ {p q : Param}, Names p.proto q → q = p := fun h => names_unique h (names_iff.2 (.inl rfl))
  refine ⟨?_, ?_, ?_, ?_⟩
  · intro k v h
    obtain ⟨p, rfl, _⟩ := mem_claims.1 (hm.mem_iff.1 h)
    exact ⟨p, names_iff.2 (.inl rfl)⟩
  · have hsym : ∀ {x y : Str × JVal}, (∀ p, Names x.1 p → ¬ Names y.1 p) → ∀ p, Names y.1 p → ¬ Names x.1 p :=
      fun h p h1 h2 => h p h2 h1
    refine (hm.pairwise_iff (fun {_ _} => hsym)).2 ?_
    unfold claims
    rw [List.pairwise_filterMap]
    have hnd : Param.all.Pairwise (· ≠ ·) := by decide
    refine hnd.imp ?_
    intro p q hpq a ha b hb x hx hy
    simp only [Option.map_eq_some_iff] at ha hb
    obtain ⟨_, _, rfl⟩ := ha
    obtain ⟨_, _, rfl⟩ := hb
    exact hpq ((hproto hx).symm.trans (hproto hy))
  · intro k v p h hk hv
    obtain ⟨q, rfl, hw⟩ := mem_claims.1 (hm.mem_iff.1 h)
    obtain rfl := hproto hk
    exact (wire_means hn hw).2
  · intro p h
    cases hw : wire r p with
    | none => exact wire_none hw
    | some v =>
      have := h p.proto v (hm.mem_iff.2 (mem_claims.2 ⟨p, rfl, hw⟩)) (names_iff.2 (.inl rfl))
      exact absurd this (wire_means (ex := ex) hn hw).1

end Verif.RequestObject
