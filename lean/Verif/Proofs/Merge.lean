import Verif.Spec.Merge
import Verif.Proofs.PbMap

/-! Reading an encoding into a message that has content. -/
namespace Verif.Wire
open Verif.Jose (Out)
open Verif.Spec.Proto (later mergeOpt mergeMap)

variable {M S : Type} {fields : List (Nat × Handler M)} {unknown : Str → M → M}

theorem fold_str {num : Nat} {get : M → Str} {set : Str → M → M} {tag s : Str} {m : M} (ht : tag = tagOf num 2)
    (hf : fields.lookup num = some (onStr set)) (hn : 1 ≤ num) (hn' : num < 2000) (h3 : ∀ m, set (get m) m = m) :
    PartOk fields unknown (.str tag s) m (set (later [] (get m) s) m) := by
  by_cases h : s = []
  · subst h
    rw [show later [] (get m) [] = get m from if_pos rfl, h3]
    exact ⟨[], enc_nil, fun _ => adv_nil m⟩
  · rw [show later [] (get m) s = s from if_neg h, Part.str, if_pos (List.length_pos_iff.2 h)]
    exact partOk_bytes ht hf hn hn'

theorem fold_optStr {num : Nat} {get : M → Option Str} {set : Option Str → M → M} {tag : Str} {s : Option Str} {m : M}
    (ht : tag = tagOf num 2) (hf : fields.lookup num = some (onStr fun s => set (some s))) (hn : 1 ≤ num) (hn' : num < 2000)
    (h3 : ∀ m, set (get m) m = m) : PartOk fields unknown (.optStr tag s) m (set (s.or (get m)) m) := by
  cases s with
  | none =>
    rw [Option.none_or, h3]
    exact ⟨[], enc_nil, fun _ => adv_nil m⟩
  | some s => exact partOk_bytes (set := fun s => set (some s)) ht hf hn hn'

theorem fold_fix {num : Nat} {get : M → UInt64} {set : UInt64 → M → M} {tag : Str} {x : UInt64} {m : M} (ht : tag = tagOf num 1)
    (hf : fields.lookup num = some (onFix set)) (hn : 1 ≤ num) (hn' : num < 2000) (h3 : ∀ m, set (get m) m = m) :
    PartOk fields unknown (.fix tag x) m (set (later 0 (get m) x) m) := by
  by_cases h : x = 0
  · subst h
    rw [show later 0 (get m) 0 = get m from if_pos rfl, h3]
    exact ⟨[], enc_nil, fun _ => adv_nil m⟩
  · rw [show later 0 (get m) x = x from if_neg h, Part.fix, if_pos h]
    exact partOk_word ht hf hn hn'

theorem fold_optFix {num : Nat} {get : M → Option UInt64} {set : Option UInt64 → M → M} {tag : Str} {x : Option UInt64} {m : M}
    (ht : tag = tagOf num 1) (hf : fields.lookup num = some (onFix fun s => set (some s))) (hn : 1 ≤ num) (hn' : num < 2000)
    (h3 : ∀ m, set (get m) m = m) : PartOk fields unknown (.optFix tag x) m (set (x.or (get m)) m) := by
  cases x with
  | none =>
    rw [Option.none_or, h3]
    exact ⟨[], enc_nil, fun _ => adv_nil m⟩
  | some s => exact partOk_word (set := fun s => set (some s)) ht hf hn hn'

theorem fold_enum {num : Nat} {get : M → UInt32} {set : UInt32 → M → M} {tag : Str} {x : UInt32} {m : M} (ht : tag = tagOf num 0)
    (hf : fields.lookup num = some (onEnum set)) (hn : 1 ≤ num) (hn' : num < 2000) (h3 : ∀ m, set (get m) m = m) :
    PartOk fields unknown (.enum tag x) m (set (later 0 (get m) x) m) := by
  by_cases h : x = 0
  · subst h
    rw [show later 0 (get m) 0 = get m from if_pos rfl, h3]
    exact ⟨[], enc_nil, fun _ => adv_nil m⟩
  · rw [show later 0 (get m) x = x from if_neg h, Part.enum, if_pos h]
    refine ⟨_, enc_varint tag _, fun _ => ?_⟩
    rw [ht]
    refine adv_field hf hn hn' (by decide) (by decide) ?_
    intro pre post hl
    unfold onEnum
    rw [if_neg (by decide), readVarint32 (signExtend_lt x), signExtend_mod]
    simp

theorem fold_optVarint {num : Nat} {get : M → Option UInt64} {set : Option UInt64 → M → M} {tag : Str} {x : Option UInt64} {m : M}
    (ht : tag = tagOf num 0) (hf : fields.lookup num = some (onVarint fun s => set (some s))) (hn : 1 ≤ num)
    (hn' : num < 2000) (h3 : ∀ m, set (get m) m = m) : PartOk fields unknown (.optVarint tag x) m (set (x.or (get m)) m) := by
  cases x with
  | none =>
    rw [Option.none_or, h3]
    exact ⟨[], enc_nil, fun _ => adv_nil m⟩
  | some x =>
    refine ⟨_, enc_varint tag _, fun _ => ?_⟩
    rw [ht]
    refine adv_field hf hn hn' (by decide) (by decide) ?_
    intro pre post hl
    unfold onVarint
    rw [if_neg (by decide), readVarint64 x.toNat_lt]
    simp

theorem fold_bool {num : Nat} {get : M → Bool} {set : Bool → M → M} {tag : Str} {x : Bool} {m : M} (ht : tag = tagOf num 0)
    (hf : fields.lookup num = some (onBool set)) (hn : 1 ≤ num) (hn' : num < 2000) (h3 : ∀ m, set (get m) m = m) :
    PartOk fields unknown (.bool tag x) m (set (later false (get m) x) m) := by
  cases x with
  | false =>
    rw [show later false (get m) false = get m from if_pos rfl, h3]
    exact ⟨[], enc_nil, fun _ => adv_nil m⟩
  | true =>
    rw [show later false (get m) true = true from if_neg (by decide)]
    refine ⟨tag ++ varint 1, ⟨?_, ?_⟩, fun _ => ?_⟩
    · simp [Part.bool, varint_one]
    · rw [varint_one]
      exact writes_then (writes_byte 1) (writes_tag tag)
    · rw [ht]
      refine adv_field hf hn hn' (by decide) (by decide) ?_
      intro pre post hl
      unfold onBool
      rw [if_neg (by decide), readVarint64 (by decide)]
      simp

theorem fold_optBool {num : Nat} {get : M → Option Bool} {set : Option Bool → M → M} {tag : Str} {x : Option Bool} {m : M}
    (ht : tag = tagOf num 0) (hf : fields.lookup num = some (onBool fun b => set (some b))) (hn : 1 ≤ num) (hn' : num < 2000)
    (h3 : ∀ m, set (get m) m = m) : PartOk fields unknown (.optBool tag x) m (set (x.or (get m)) m) := by
  cases x with
  | none =>
    rw [Option.none_or, h3]
    exact ⟨[], enc_nil, fun _ => adv_nil m⟩
  | some b =>
    have hv : varint (if b then 1 else 0) = [if b then 1 else 0] := by
      cases b <;> (rw [varint, if_neg (by decide)]; rfl)
    refine ⟨tag ++ varint (if b then 1 else 0), ⟨?_, ?_⟩, fun _ => ?_⟩
    · simp [Part.optBool, hv]
    · rw [hv]
      exact writes_then (writes_byte _) (writes_tag tag)
    · rw [ht]
      refine adv_field hf hn hn' (by decide) (by decide) ?_
      intro pre post hl
      unfold onBool
      rw [if_neg (by decide), readVarint64 (by cases b <;> decide)]
      cases b <;> simp

theorem fold_optMsg {new : S} {num : Nat} {get : M → Option S} {set : Option S → M → M} {dec : S → Str → Out S} {tag : Str}
    {parts : S → List Part} {merge : S → S → S} {x : Option S} {m : M} (ht : tag = tagOf num 2)
    (hf : fields.lookup num = some (onMsg (fun m => (get m).getD new) (fun s => set (some s)) dec)) (hn : 1 ≤ num)
    (hn' : num < 2000) (h3 : ∀ m, set (get m) m = m)
    (hsub : ∀ s, x = some s → ∃ e, EncAll (parts s) e ∧ (e.length < 2 ^ 63 → dec ((get m).getD new) e = .ok (merge ((get m).getD new) s))) :
    PartOk fields unknown (.optMsg tag (x.map parts)) m (set (mergeOpt merge new (get m) x) m) := by
  cases x with
  | none =>
    rw [show mergeOpt merge new (get m) none = get m from rfl, h3]
    exact ⟨[], enc_nil, fun _ => adv_nil m⟩
  | some s => exact partOk_msg (set := fun s => set (some s)) ht hf hn hn' (hsub s rfl)

theorem fold_repStr {num : Nat} {get : M → List Str} {set : List Str → M → M} {tag : Str} {l : List Str} {m : M}
    (ht : tag = tagOf num 2) (hf : fields.lookup num = some (onStr fun s m => set (get m ++ [s]) m)) (hn : 1 ≤ num)
    (hn' : num < 2000) (h1 : ∀ x m, get (set x m) = x) (h2 : ∀ x y m, set x (set y m) = set x m)
    (h3 : ∀ m, set (get m) m = m) : PartOk fields unknown (.all (l.map (.bytes tag))) m (set (get m ++ l) m) := by
  have := partOk_rep (part := .bytes tag) (app := fun a m => set (get m ++ [a]) m) (l := l) (m := m)
    (fun a _ m => partOk_bytes (fields := fields) (unknown := unknown) (s := a) (m := m) ht hf hn hn')
  rwa [foldl_app h1 h2 h3] at this

theorem fold_repMsg {num : Nat} {new : S} {get : M → List S} {set : List S → M → M} {dec : S → Str → Out S} {tag : Str}
    {parts : S → List Part} {l : List S} {m : M} (ht : tag = tagOf num 2)
    (hf : fields.lookup num = some (onMsg (fun _ => new) (fun s m => set (get m ++ [s]) m) dec)) (hn : 1 ≤ num)
    (hn' : num < 2000) (h1 : ∀ x m, get (set x m) = x) (h2 : ∀ x y m, set x (set y m) = set x m)
    (h3 : ∀ m, set (get m) m = m)
    (hsub : ∀ s ∈ l, ∃ e, EncAll (parts s) e ∧ (e.length < 2 ^ 63 → dec new e = .ok s)) :
    PartOk fields unknown (.all (l.map fun x => .msg tag (parts x))) m (set (get m ++ l) m) := by
  have := partOk_rep (part := fun x => .msg tag (parts x)) (app := fun a m => set (get m ++ [a]) m) (l := l) (m := m)
    (fun a ha m => partOk_msg (fields := fields) (unknown := unknown) (get := fun _ => new) (dec := dec)
      (set := fun s m => set (get m ++ [s]) m) (x := a) (m := m) ht hf hn hn' (hsub a ha))
  rwa [foldl_app h1 h2 h3] at this

theorem mergeMap_nil (l : List (Str × Str)) : mergeMap l [] = l := by
  induction l with
  | nil => rfl
  | cons e l ih =>
    obtain ⟨k, v⟩ := e
    simp only [mergeMap, List.lookup_nil, Option.getD_none, List.filter_nil, ih]

theorem lookup_none_of {l : List (Str × Str)} {k : Str} (h : k ∉ l.map Prod.fst) : l.lookup k = none := by
  induction l with
  | nil => rfl
  | cons e l ih =>
    obtain ⟨k', v⟩ := e
    simp only [List.map_cons, List.mem_cons, not_or] at h
    have : (k == k') = false := by simpa using h.1
    rw [List.lookup_cons, this]
    exact ih h.2

theorem filter_ne_of {l : List (Str × Str)} {k : Str} (h : k ∉ l.map Prod.fst) : (l.filter fun e => e.1 ≠ k) = l := by
  refine List.filter_eq_self.2 fun e he => ?_
  have : e.1 ≠ k := fun h' => h (h' ▸ List.mem_map_of_mem he)
  simpa using this

theorem mergeMap_cons (k v : Str) (l l' : List (Str × Str)) (h : k ∉ l'.map Prod.fst) :
    mergeMap l ((k, v) :: l') = mergeMap (put k v l) l' := by
  induction l generalizing l' with
  | nil => simp only [mergeMap, put, lookup_none_of h, filter_ne_of h, Option.getD_none]
  | cons e l ih =>
    obtain ⟨k', v'⟩ := e
    unfold put
    by_cases hk : k' = k
    · subst hk
      have hf := filter_ne_of h
      simp only [mergeMap, if_pos, lookup_none_of h, List.lookup_cons, beq_self_eq_true, Option.getD_some, Option.getD_none]
      rw [List.filter_cons_of_neg (by simp), hf]
    · have hk' : ¬ k = k' := fun h => hk h.symm
      rw [if_neg hk]
      simp only [mergeMap, List.lookup_cons]
      rw [List.filter_cons_of_pos (by simpa using hk'), ih _ (fun hm => h (by
        obtain ⟨e, he, rfl⟩ := List.mem_map.1 hm
        exact List.mem_map_of_mem (List.mem_filter.1 he).1))]
      have : (k' == k) = false := by simpa using hk
      rw [this]

theorem foldl_mergeMap (l l' : List (Str × Str)) (h : (l'.map Prod.fst).Nodup) :
    l'.foldl (fun l e => put e.1 e.2 l) l = mergeMap l l' := by
  induction l' generalizing l with
  | nil => rw [mergeMap_nil]; rfl
  | cons e l' ih =>
    rw [List.map_cons, List.nodup_cons] at h
    rw [List.foldl_cons, ih _ h.2, ← mergeMap_cons _ _ _ _ h.1]

theorem foldl_set_put {get : M → List (Str × Str)} {set : List (Str × Str) → M → M} (h1 : ∀ x m, get (set x m) = x)
    (h2 : ∀ x y m, set x (set y m) = set x m) (h3 : ∀ m, set (get m) m = m) (l : List (Str × Str)) (m : M) :
    l.foldl (fun m e => set (put e.1 e.2 (get m)) m) m = set (l.foldl (fun l e => put e.1 e.2 l) (get m)) m := by
  induction l generalizing m with
  | nil => simp [h3]
  | cons e l ih => rw [List.foldl_cons, ih, h1, h2]; rfl

theorem fold_map {num : Nat} {get : M → List (Str × Str)} {set : List (Str × Str) → M → M} {tag : Str}
    {l : List (Str × Str)} {m : M} (ht : tag = tagOf num 2) (hf : fields.lookup num = some (onMap get set)) (hn : 1 ≤ num)
    (hn' : num < 2000) (h1 : ∀ x m, get (set x m) = x) (h2 : ∀ x y m, set x (set y m) = set x m)
    (h3 : ∀ m, set (get m) m = m) (hd : (l.map Prod.fst).Nodup) :
    PartOk fields unknown (.all (l.map fun (k, v) => .entry tag k v)) m (set (mergeMap (get m) l) m) := by
  have := partOk_rep (part := fun (k, v) => .entry tag k v) (app := fun e m => set (put e.1 e.2 (get m)) m) (l := l) (m := m)
    (fun e _ m => partOk_entry (fields := fields) (unknown := unknown) (k := e.1) (v := e.2) (m := m) ht hf hn hn')
  rwa [foldl_set_put h1 h2 h3, foldl_mergeMap _ _ hd] at this

/-- What a map has after merging. -/
theorem mergeMap_lookup (l l' : List (Str × Str)) (k : Str) : (mergeMap l l').lookup k = (l'.lookup k).or (l.lookup k) := by
  induction l generalizing l' with
  | nil => simp [mergeMap]
  | cons e l ih =>
    obtain ⟨k', v⟩ := e
    simp only [mergeMap, List.lookup_cons]
    by_cases h : k = k'
    · subst h
      cases l'.lookup k <;> simp
    · have : (k == k') = false := by simpa using h
      rw [this]
      simp only [ih]
      congr 1
      clear ih
      induction l' with
      | nil => rfl
      | cons e l' ih =>
        obtain ⟨a, b⟩ := e
        by_cases ha : a = k'
        · subst ha
          rw [List.filter_cons_of_neg (by simp), List.lookup_cons, this]
          exact ih
        · rw [List.filter_cons_of_pos (by simpa using ha), List.lookup_cons, List.lookup_cons, ih]

end Verif.Wire

namespace Verif.Pb
open Verif.Wire
open Verif.Jose (Out)
open Verif.Spec.Proto

theorem foldAuthenticateRequest (m x : AuthenticateRequest) (h : x.Ok) : Chain AuthenticateRequest.fields AuthenticateRequest.keep x.parts m (mergeAuthenticateRequest m x) := by
  cases x
  refine chain_cons (fold_optStr (num := 1) (get := fun m => m.clientId) (set := fun s m => { m with clientId := s }) rfl rfl (by decide) (by decide) (fun _ => rfl)) ?_
  refine chain_cons (fold_optStr (num := 2) (get := fun m => m.clientSecret) (set := fun s m => { m with clientSecret := s }) rfl rfl (by decide) (by decide) (fun _ => rfl)) ?_
  refine chain_cons (fold_optStr (num := 3) (get := fun m => m.clientAssertionType) (set := fun s m => { m with clientAssertionType := s }) rfl rfl (by decide) (by decide) (fun _ => rfl)) ?_
  refine chain_cons (fold_optStr (num := 4) (get := fun m => m.clientAssertion) (set := fun s m => { m with clientAssertion := s }) rfl rfl (by decide) (by decide) (fun _ => rfl)) ?_
  refine chain_cons (partOk_raw h.unknown (fun _ _ => by simp [AuthenticateRequest.keep]) (by simp [AuthenticateRequest.keep])) ?_
  exact chain_nil _

theorem foldError (m x : Error) (h : x.Ok) : Chain Error.fields Error.keep x.parts m (mergeError m x) := by
  cases x
  refine chain_cons (fold_str (num := 1) (get := fun m => m.err) (set := fun s m => { m with err := s }) rfl rfl (by decide) (by decide) (fun _ => rfl)) ?_
  refine chain_cons (fold_str (num := 2) (get := fun m => m.errorDescription) (set := fun s m => { m with errorDescription := s }) rfl rfl (by decide) (by decide) (fun _ => rfl)) ?_
  refine chain_cons (fold_optStr (num := 3) (get := fun m => m.errorUri) (set := fun s m => { m with errorUri := s }) rfl rfl (by decide) (by decide) (fun _ => rfl)) ?_
  refine chain_cons (fold_optStr (num := 4) (get := fun m => m.state) (set := fun s m => { m with state := s }) rfl rfl (by decide) (by decide) (fun _ => rfl)) ?_
  refine chain_cons (fold_optStr (num := 5) (get := fun m => m.resource) (set := fun s m => { m with resource := s }) rfl rfl (by decide) (by decide) (fun _ => rfl)) ?_
  refine chain_cons (partOk_raw h.unknown (fun _ _ => by simp [Error.keep]) (by simp [Error.keep])) ?_
  exact chain_nil _

theorem foldClient (m x : Client) (h : x.Ok) : Chain Client.fields Client.keep x.parts m (mergeClient m x) := by
  cases x
  refine chain_cons (fold_str (num := 1) (get := fun m => m.clientId) (set := fun s m => { m with clientId := s }) rfl rfl (by decide) (by decide) (fun _ => rfl)) ?_
  refine chain_cons (fold_enum (num := 2) (get := fun m => m.clientType) (set := fun s m => { m with clientType := s }) rfl rfl (by decide) (by decide) (fun _ => rfl)) ?_
  refine chain_cons (fold_repStr (num := 3) (get := fun m => m.redirectUris) (set := fun s m => { m with redirectUris := s }) rfl rfl (by decide) (by decide) (fun _ _ => rfl) (fun _ _ _ => rfl) (fun _ => rfl)) ?_
  refine chain_cons (fold_repStr (num := 4) (get := fun m => m.responseTypes) (set := fun s m => { m with responseTypes := s }) rfl rfl (by decide) (by decide) (fun _ _ => rfl) (fun _ _ _ => rfl) (fun _ => rfl)) ?_
  refine chain_cons (fold_repStr (num := 5) (get := fun m => m.responseModes) (set := fun s m => { m with responseModes := s }) rfl rfl (by decide) (by decide) (fun _ _ => rfl) (fun _ _ _ => rfl) (fun _ => rfl)) ?_
  refine chain_cons (fold_repStr (num := 6) (get := fun m => m.grantTypes) (set := fun s m => { m with grantTypes := s }) rfl rfl (by decide) (by decide) (fun _ _ => rfl) (fun _ _ _ => rfl) (fun _ => rfl)) ?_
  refine chain_cons (fold_str (num := 7) (get := fun m => m.applicationType) (set := fun s m => { m with applicationType := s }) rfl rfl (by decide) (by decide) (fun _ => rfl)) ?_
  refine chain_cons (fold_repStr (num := 8) (get := fun m => m.contacts) (set := fun s m => { m with contacts := s }) rfl rfl (by decide) (by decide) (fun _ _ => rfl) (fun _ _ _ => rfl) (fun _ => rfl)) ?_
  refine chain_cons (fold_str (num := 9) (get := fun m => m.clientName) (set := fun s m => { m with clientName := s }) rfl rfl (by decide) (by decide) (fun _ => rfl)) ?_
  refine chain_cons (fold_str (num := 10) (get := fun m => m.logoUri) (set := fun s m => { m with logoUri := s }) rfl rfl (by decide) (by decide) (fun _ => rfl)) ?_
  refine chain_cons (fold_str (num := 11) (get := fun m => m.clientUri) (set := fun s m => { m with clientUri := s }) rfl rfl (by decide) (by decide) (fun _ => rfl)) ?_
  refine chain_cons (fold_str (num := 12) (get := fun m => m.policyUri) (set := fun s m => { m with policyUri := s }) rfl rfl (by decide) (by decide) (fun _ => rfl)) ?_
  refine chain_cons (fold_str (num := 13) (get := fun m => m.tosUri) (set := fun s m => { m with tosUri := s }) rfl rfl (by decide) (by decide) (fun _ => rfl)) ?_
  refine chain_cons (fold_str (num := 14) (get := fun m => m.jwksUri) (set := fun s m => { m with jwksUri := s }) rfl rfl (by decide) (by decide) (fun _ => rfl)) ?_
  refine chain_cons (fold_str (num := 15) (get := fun m => m.jwks) (set := fun s m => { m with jwks := s }) rfl rfl (by decide) (by decide) (fun _ => rfl)) ?_
  refine chain_cons (fold_str (num := 16) (get := fun m => m.clientSecret) (set := fun s m => { m with clientSecret := s }) rfl rfl (by decide) (by decide) (fun _ => rfl)) ?_
  refine chain_cons (fold_str (num := 17) (get := fun m => m.subjectType) (set := fun s m => { m with subjectType := s }) rfl rfl (by decide) (by decide) (fun _ => rfl)) ?_
  refine chain_cons (fold_str (num := 18) (get := fun m => m.sectorIdentifier) (set := fun s m => { m with sectorIdentifier := s }) rfl rfl (by decide) (by decide) (fun _ => rfl)) ?_
  refine chain_cons (fold_str (num := 19) (get := fun m => m.tokenEndpointAuthMethod) (set := fun s m => { m with tokenEndpointAuthMethod := s }) rfl rfl (by decide) (by decide) (fun _ => rfl)) ?_
  refine chain_cons (fold_str (num := 20) (get := fun m => m.tlsClientAuthSubjectDn) (set := fun s m => { m with tlsClientAuthSubjectDn := s }) rfl rfl (by decide) (by decide) (fun _ => rfl)) ?_
  refine chain_cons (fold_str (num := 21) (get := fun m => m.tlsClientAuthSanDns) (set := fun s m => { m with tlsClientAuthSanDns := s }) rfl rfl (by decide) (by decide) (fun _ => rfl)) ?_
  refine chain_cons (fold_str (num := 22) (get := fun m => m.tlsClientAuthSanUri) (set := fun s m => { m with tlsClientAuthSanUri := s }) rfl rfl (by decide) (by decide) (fun _ => rfl)) ?_
  refine chain_cons (fold_str (num := 23) (get := fun m => m.tlsClientAuthSanIp) (set := fun s m => { m with tlsClientAuthSanIp := s }) rfl rfl (by decide) (by decide) (fun _ => rfl)) ?_
  refine chain_cons (fold_str (num := 24) (get := fun m => m.tlsClientAuthSanEmail) (set := fun s m => { m with tlsClientAuthSanEmail := s }) rfl rfl (by decide) (by decide) (fun _ => rfl)) ?_
  refine chain_cons (fold_bool (num := 25) (get := fun m => m.tlsClientCertificateBoundAccessTokens) (set := fun s m => { m with tlsClientCertificateBoundAccessTokens := s }) rfl rfl (by decide) (by decide) (fun _ => rfl)) ?_
  refine chain_cons (fold_bool (num := 26) (get := fun m => m.requirePushedAuthorizationRequests) (set := fun s m => { m with requirePushedAuthorizationRequests := s }) rfl rfl (by decide) (by decide) (fun _ => rfl)) ?_
  refine chain_cons (fold_bool (num := 27) (get := fun m => m.requireSignedRequestObject) (set := fun s m => { m with requireSignedRequestObject := s }) rfl rfl (by decide) (by decide) (fun _ => rfl)) ?_
  refine chain_cons (fold_bool (num := 28) (get := fun m => m.dpopBoundAccessTokens) (set := fun s m => { m with dpopBoundAccessTokens := s }) rfl rfl (by decide) (by decide) (fun _ => rfl)) ?_
  refine chain_cons (partOk_raw h.unknown (fun _ _ => by simp [Client.keep]) (by simp [Client.keep])) ?_
  exact chain_nil _

theorem foldAuthenticateResponse (m x : AuthenticateResponse) (h : x.Ok) : Chain AuthenticateResponse.fields AuthenticateResponse.keep x.parts m (mergeAuthenticateResponse m x) := by
  cases x
  refine chain_cons (fold_optMsg (num := 1) (get := fun m => m.error) (merge := mergeError) (new := {}) (dec := Error.unmarshal) (set := fun s m => { m with error := s }) rfl rfl (by decide) (by decide) (fun _ => rfl)
    (fun s hs => (dec_of_chain (foldError _ s (h.error s hs))))) ?_
  refine chain_cons (fold_optMsg (num := 2) (get := fun m => m.client) (merge := mergeClient) (new := {}) (dec := Client.unmarshal) (set := fun s m => { m with client := s }) rfl rfl (by decide) (by decide) (fun _ => rfl)
    (fun s hs => (dec_of_chain (foldClient _ s (h.client s hs))))) ?_
  refine chain_cons (partOk_raw h.unknown (fun _ _ => by simp [AuthenticateResponse.keep]) (by simp [AuthenticateResponse.keep])) ?_
  exact chain_nil _

theorem foldRegisterResponse (m x : RegisterResponse) (h : x.Ok) : Chain RegisterResponse.fields RegisterResponse.keep x.parts m (mergeRegisterResponse m x) := by
  cases x
  refine chain_cons (fold_optMsg (num := 1) (get := fun m => m.error) (merge := mergeError) (new := {}) (dec := Error.unmarshal) (set := fun s m => { m with error := s }) rfl rfl (by decide) (by decide) (fun _ => rfl)
    (fun s hs => (dec_of_chain (foldError _ s (h.error s hs))))) ?_
  refine chain_cons (fold_optMsg (num := 2) (get := fun m => m.client) (merge := mergeClient) (new := {}) (dec := Client.unmarshal) (set := fun s m => { m with client := s }) rfl rfl (by decide) (by decide) (fun _ => rfl)
    (fun s hs => (dec_of_chain (foldClient _ s (h.client s hs))))) ?_
  refine chain_cons (partOk_raw h.unknown (fun _ _ => by simp [RegisterResponse.keep]) (by simp [RegisterResponse.keep])) ?_
  exact chain_nil _

theorem foldSoftwareStatement (m x : SoftwareStatement) (h : x.Ok) : Chain SoftwareStatement.fields SoftwareStatement.keep x.parts m (mergeSoftwareStatement m x) := by
  cases x
  refine chain_cons (fold_str (num := 1) (get := fun m => m.softwareId) (set := fun s m => { m with softwareId := s }) rfl rfl (by decide) (by decide) (fun _ => rfl)) ?_
  refine chain_cons (partOk_raw h.unknown (fun _ _ => by simp [SoftwareStatement.keep]) (by simp [SoftwareStatement.keep])) ?_
  exact chain_nil _

theorem foldProtectedResourceMetadata (m x : ProtectedResourceMetadata) (h : x.Ok) : Chain ProtectedResourceMetadata.fields ProtectedResourceMetadata.keep x.parts m (mergeProtectedResourceMetadata m x) := by
  cases x
  refine chain_cons (fold_str (num := 1) (get := fun m => m.resource) (set := fun s m => { m with resource := s }) rfl rfl (by decide) (by decide) (fun _ => rfl)) ?_
  refine chain_cons (fold_repStr (num := 2) (get := fun m => m.authorizationServers) (set := fun s m => { m with authorizationServers := s }) rfl rfl (by decide) (by decide) (fun _ _ => rfl) (fun _ _ _ => rfl) (fun _ => rfl)) ?_
  refine chain_cons (fold_optStr (num := 3) (get := fun m => m.jwksUri) (set := fun s m => { m with jwksUri := s }) rfl rfl (by decide) (by decide) (fun _ => rfl)) ?_
  refine chain_cons (fold_repStr (num := 4) (get := fun m => m.scopesProvided) (set := fun s m => { m with scopesProvided := s }) rfl rfl (by decide) (by decide) (fun _ _ => rfl) (fun _ _ _ => rfl) (fun _ => rfl)) ?_
  refine chain_cons (fold_repStr (num := 5) (get := fun m => m.bearerMethodsSupported) (set := fun s m => { m with bearerMethodsSupported := s }) rfl rfl (by decide) (by decide) (fun _ _ => rfl) (fun _ _ _ => rfl) (fun _ => rfl)) ?_
  refine chain_cons (fold_repStr (num := 6) (get := fun m => m.resourceSigningAlgValuesSupported) (set := fun s m => { m with resourceSigningAlgValuesSupported := s }) rfl rfl (by decide) (by decide) (fun _ _ => rfl) (fun _ _ _ => rfl) (fun _ => rfl)) ?_
  refine chain_cons (fold_repStr (num := 7) (get := fun m => m.resourceEncryptionAlgValuesSupported) (set := fun s m => { m with resourceEncryptionAlgValuesSupported := s }) rfl rfl (by decide) (by decide) (fun _ _ => rfl) (fun _ _ _ => rfl) (fun _ => rfl)) ?_
  refine chain_cons (fold_repStr (num := 8) (get := fun m => m.resourceEncryptionEncValuesSupported) (set := fun s m => { m with resourceEncryptionEncValuesSupported := s }) rfl rfl (by decide) (by decide) (fun _ _ => rfl) (fun _ _ _ => rfl) (fun _ => rfl)) ?_
  refine chain_cons (fold_optStr (num := 9) (get := fun m => m.resourceDocumentation) (set := fun s m => { m with resourceDocumentation := s }) rfl rfl (by decide) (by decide) (fun _ => rfl)) ?_
  refine chain_cons (fold_optStr (num := 10) (get := fun m => m.resourcePolicyUri) (set := fun s m => { m with resourcePolicyUri := s }) rfl rfl (by decide) (by decide) (fun _ => rfl)) ?_
  refine chain_cons (fold_optStr (num := 11) (get := fun m => m.resourceTosUri) (set := fun s m => { m with resourceTosUri := s }) rfl rfl (by decide) (by decide) (fun _ => rfl)) ?_
  refine chain_cons (fold_optStr (num := 12) (get := fun m => m.signedMetadata) (set := fun s m => { m with signedMetadata := s }) rfl rfl (by decide) (by decide) (fun _ => rfl)) ?_
  refine chain_cons (partOk_raw h.unknown (fun _ _ => by simp [ProtectedResourceMetadata.keep]) (by simp [ProtectedResourceMetadata.keep])) ?_
  exact chain_nil _

theorem foldMTLSEndpoints (m x : MTLSEndpoints) (h : x.Ok) : Chain MTLSEndpoints.fields MTLSEndpoints.keep x.parts m (mergeMTLSEndpoints m x) := by
  cases x
  refine chain_cons (fold_str (num := 1) (get := fun m => m.tokenEndpoint) (set := fun s m => { m with tokenEndpoint := s }) rfl rfl (by decide) (by decide) (fun _ => rfl)) ?_
  refine chain_cons (fold_str (num := 2) (get := fun m => m.revocationEndpoint) (set := fun s m => { m with revocationEndpoint := s }) rfl rfl (by decide) (by decide) (fun _ => rfl)) ?_
  refine chain_cons (fold_str (num := 3) (get := fun m => m.introspectionEndpoint) (set := fun s m => { m with introspectionEndpoint := s }) rfl rfl (by decide) (by decide) (fun _ => rfl)) ?_
  refine chain_cons (fold_str (num := 4) (get := fun m => m.pushedAuthorizationRequestEndpoint) (set := fun s m => { m with pushedAuthorizationRequestEndpoint := s }) rfl rfl (by decide) (by decide) (fun _ => rfl)) ?_
  refine chain_cons (fold_str (num := 5) (get := fun m => m.deviceAuthorizationEndpoint) (set := fun s m => { m with deviceAuthorizationEndpoint := s }) rfl rfl (by decide) (by decide) (fun _ => rfl)) ?_
  refine chain_cons (partOk_raw h.unknown (fun _ _ => by simp [MTLSEndpoints.keep]) (by simp [MTLSEndpoints.keep])) ?_
  exact chain_nil _

theorem foldServerMetadata (m x : ServerMetadata) (h : x.Ok) : Chain ServerMetadata.fields ServerMetadata.keep x.parts m (mergeServerMetadata m x) := by
  cases x
  refine chain_cons (fold_str (num := 1) (get := fun m => m.issuer) (set := fun s m => { m with issuer := s }) rfl rfl (by decide) (by decide) (fun _ => rfl)) ?_
  refine chain_cons (fold_str (num := 2) (get := fun m => m.authorizationEndpoint) (set := fun s m => { m with authorizationEndpoint := s }) rfl rfl (by decide) (by decide) (fun _ => rfl)) ?_
  refine chain_cons (fold_str (num := 3) (get := fun m => m.tokenEndpoint) (set := fun s m => { m with tokenEndpoint := s }) rfl rfl (by decide) (by decide) (fun _ => rfl)) ?_
  refine chain_cons (fold_str (num := 4) (get := fun m => m.jwksUri) (set := fun s m => { m with jwksUri := s }) rfl rfl (by decide) (by decide) (fun _ => rfl)) ?_
  refine chain_cons (fold_str (num := 5) (get := fun m => m.userinfoEndpoint) (set := fun s m => { m with userinfoEndpoint := s }) rfl rfl (by decide) (by decide) (fun _ => rfl)) ?_
  refine chain_cons (fold_str (num := 6) (get := fun m => m.registrationEndpoint) (set := fun s m => { m with registrationEndpoint := s }) rfl rfl (by decide) (by decide) (fun _ => rfl)) ?_
  refine chain_cons (fold_repStr (num := 7) (get := fun m => m.scopesSupported) (set := fun s m => { m with scopesSupported := s }) rfl rfl (by decide) (by decide) (fun _ _ => rfl) (fun _ _ _ => rfl) (fun _ => rfl)) ?_
  refine chain_cons (fold_repStr (num := 8) (get := fun m => m.responseTypesSupported) (set := fun s m => { m with responseTypesSupported := s }) rfl rfl (by decide) (by decide) (fun _ _ => rfl) (fun _ _ _ => rfl) (fun _ => rfl)) ?_
  refine chain_cons (fold_repStr (num := 9) (get := fun m => m.responseModesSupported) (set := fun s m => { m with responseModesSupported := s }) rfl rfl (by decide) (by decide) (fun _ _ => rfl) (fun _ _ _ => rfl) (fun _ => rfl)) ?_
  refine chain_cons (fold_repStr (num := 10) (get := fun m => m.grantTypesSupported) (set := fun s m => { m with grantTypesSupported := s }) rfl rfl (by decide) (by decide) (fun _ _ => rfl) (fun _ _ _ => rfl) (fun _ => rfl)) ?_
  refine chain_cons (fold_repStr (num := 11) (get := fun m => m.acrValuesSupported) (set := fun s m => { m with acrValuesSupported := s }) rfl rfl (by decide) (by decide) (fun _ _ => rfl) (fun _ _ _ => rfl) (fun _ => rfl)) ?_
  refine chain_cons (fold_repStr (num := 12) (get := fun m => m.subjectTypesSupported) (set := fun s m => { m with subjectTypesSupported := s }) rfl rfl (by decide) (by decide) (fun _ _ => rfl) (fun _ _ _ => rfl) (fun _ => rfl)) ?_
  refine chain_cons (fold_repStr (num := 13) (get := fun m => m.idTokenSigningAlgValuesSupported) (set := fun s m => { m with idTokenSigningAlgValuesSupported := s }) rfl rfl (by decide) (by decide) (fun _ _ => rfl) (fun _ _ _ => rfl) (fun _ => rfl)) ?_
  refine chain_cons (fold_repStr (num := 14) (get := fun m => m.idTokenEncryptionAlgValuesSupported) (set := fun s m => { m with idTokenEncryptionAlgValuesSupported := s }) rfl rfl (by decide) (by decide) (fun _ _ => rfl) (fun _ _ _ => rfl) (fun _ => rfl)) ?_
  refine chain_cons (fold_repStr (num := 15) (get := fun m => m.idTokenEncryptionEncValuesSupported) (set := fun s m => { m with idTokenEncryptionEncValuesSupported := s }) rfl rfl (by decide) (by decide) (fun _ _ => rfl) (fun _ _ _ => rfl) (fun _ => rfl)) ?_
  refine chain_cons (fold_repStr (num := 16) (get := fun m => m.userinfoSigningAlgValuesSupported) (set := fun s m => { m with userinfoSigningAlgValuesSupported := s }) rfl rfl (by decide) (by decide) (fun _ _ => rfl) (fun _ _ _ => rfl) (fun _ => rfl)) ?_
  refine chain_cons (fold_repStr (num := 17) (get := fun m => m.userinfoEncryptionAlgValuesSupported) (set := fun s m => { m with userinfoEncryptionAlgValuesSupported := s }) rfl rfl (by decide) (by decide) (fun _ _ => rfl) (fun _ _ _ => rfl) (fun _ => rfl)) ?_
  refine chain_cons (fold_repStr (num := 18) (get := fun m => m.userinfoEncryptionEncValuesSupported) (set := fun s m => { m with userinfoEncryptionEncValuesSupported := s }) rfl rfl (by decide) (by decide) (fun _ _ => rfl) (fun _ _ _ => rfl) (fun _ => rfl)) ?_
  refine chain_cons (fold_repStr (num := 19) (get := fun m => m.requestObjectSigningAlgValuesSupported) (set := fun s m => { m with requestObjectSigningAlgValuesSupported := s }) rfl rfl (by decide) (by decide) (fun _ _ => rfl) (fun _ _ _ => rfl) (fun _ => rfl)) ?_
  refine chain_cons (fold_repStr (num := 20) (get := fun m => m.requestObjectEncryptionAlgValuesSupported) (set := fun s m => { m with requestObjectEncryptionAlgValuesSupported := s }) rfl rfl (by decide) (by decide) (fun _ _ => rfl) (fun _ _ _ => rfl) (fun _ => rfl)) ?_
  refine chain_cons (fold_repStr (num := 21) (get := fun m => m.requestObjectEncryptionEncValuesSupported) (set := fun s m => { m with requestObjectEncryptionEncValuesSupported := s }) rfl rfl (by decide) (by decide) (fun _ _ => rfl) (fun _ _ _ => rfl) (fun _ => rfl)) ?_
  refine chain_cons (fold_repStr (num := 22) (get := fun m => m.tokenEndpointAuthMethodsSupported) (set := fun s m => { m with tokenEndpointAuthMethodsSupported := s }) rfl rfl (by decide) (by decide) (fun _ _ => rfl) (fun _ _ _ => rfl) (fun _ => rfl)) ?_
  refine chain_cons (fold_repStr (num := 23) (get := fun m => m.tokenEndpointAuthSigningAlgValuesSupported) (set := fun s m => { m with tokenEndpointAuthSigningAlgValuesSupported := s }) rfl rfl (by decide) (by decide) (fun _ _ => rfl) (fun _ _ _ => rfl) (fun _ => rfl)) ?_
  refine chain_cons (fold_repStr (num := 24) (get := fun m => m.displayValuesSupported) (set := fun s m => { m with displayValuesSupported := s }) rfl rfl (by decide) (by decide) (fun _ _ => rfl) (fun _ _ _ => rfl) (fun _ => rfl)) ?_
  refine chain_cons (fold_repStr (num := 25) (get := fun m => m.claimTypesSupported) (set := fun s m => { m with claimTypesSupported := s }) rfl rfl (by decide) (by decide) (fun _ _ => rfl) (fun _ _ _ => rfl) (fun _ => rfl)) ?_
  refine chain_cons (fold_repStr (num := 26) (get := fun m => m.claimsSupported) (set := fun s m => { m with claimsSupported := s }) rfl rfl (by decide) (by decide) (fun _ _ => rfl) (fun _ _ _ => rfl) (fun _ => rfl)) ?_
  refine chain_cons (fold_str (num := 27) (get := fun m => m.serviceDocumentation) (set := fun s m => { m with serviceDocumentation := s }) rfl rfl (by decide) (by decide) (fun _ => rfl)) ?_
  refine chain_cons (fold_repStr (num := 28) (get := fun m => m.claimsLocalesSupported) (set := fun s m => { m with claimsLocalesSupported := s }) rfl rfl (by decide) (by decide) (fun _ _ => rfl) (fun _ _ _ => rfl) (fun _ => rfl)) ?_
  refine chain_cons (fold_repStr (num := 29) (get := fun m => m.uiLocalesSupported) (set := fun s m => { m with uiLocalesSupported := s }) rfl rfl (by decide) (by decide) (fun _ _ => rfl) (fun _ _ _ => rfl) (fun _ => rfl)) ?_
  refine chain_cons (fold_bool (num := 30) (get := fun m => m.claimsParameterSupported) (set := fun s m => { m with claimsParameterSupported := s }) rfl rfl (by decide) (by decide) (fun _ => rfl)) ?_
  refine chain_cons (fold_bool (num := 31) (get := fun m => m.requestParameterSupported) (set := fun s m => { m with requestParameterSupported := s }) rfl rfl (by decide) (by decide) (fun _ => rfl)) ?_
  refine chain_cons (fold_bool (num := 32) (get := fun m => m.requestUriParameterSupported) (set := fun s m => { m with requestUriParameterSupported := s }) rfl rfl (by decide) (by decide) (fun _ => rfl)) ?_
  refine chain_cons (fold_bool (num := 33) (get := fun m => m.requireRequestUriRegistration) (set := fun s m => { m with requireRequestUriRegistration := s }) rfl rfl (by decide) (by decide) (fun _ => rfl)) ?_
  refine chain_cons (fold_str (num := 34) (get := fun m => m.opPolicyUri) (set := fun s m => { m with opPolicyUri := s }) rfl rfl (by decide) (by decide) (fun _ => rfl)) ?_
  refine chain_cons (fold_str (num := 35) (get := fun m => m.opTosUri) (set := fun s m => { m with opTosUri := s }) rfl rfl (by decide) (by decide) (fun _ => rfl)) ?_
  refine chain_cons (fold_str (num := 36) (get := fun m => m.revocationEndpoint) (set := fun s m => { m with revocationEndpoint := s }) rfl rfl (by decide) (by decide) (fun _ => rfl)) ?_
  refine chain_cons (fold_repStr (num := 37) (get := fun m => m.revocationEndpointAuthMethodsSupported) (set := fun s m => { m with revocationEndpointAuthMethodsSupported := s }) rfl rfl (by decide) (by decide) (fun _ _ => rfl) (fun _ _ _ => rfl) (fun _ => rfl)) ?_
  refine chain_cons (fold_repStr (num := 38) (get := fun m => m.revocationEndpointAuthSigningAlgValuesSupported) (set := fun s m => { m with revocationEndpointAuthSigningAlgValuesSupported := s }) rfl rfl (by decide) (by decide) (fun _ _ => rfl) (fun _ _ _ => rfl) (fun _ => rfl)) ?_
  refine chain_cons (fold_str (num := 39) (get := fun m => m.introspectionEndpoint) (set := fun s m => { m with introspectionEndpoint := s }) rfl rfl (by decide) (by decide) (fun _ => rfl)) ?_
  refine chain_cons (fold_repStr (num := 40) (get := fun m => m.introspectionEndpointAuthMethodsSupported) (set := fun s m => { m with introspectionEndpointAuthMethodsSupported := s }) rfl rfl (by decide) (by decide) (fun _ _ => rfl) (fun _ _ _ => rfl) (fun _ => rfl)) ?_
  refine chain_cons (fold_repStr (num := 41) (get := fun m => m.introspectionEndpointAuthSigningAlgValuesSupported) (set := fun s m => { m with introspectionEndpointAuthSigningAlgValuesSupported := s }) rfl rfl (by decide) (by decide) (fun _ _ => rfl) (fun _ _ _ => rfl) (fun _ => rfl)) ?_
  refine chain_cons (fold_repStr (num := 42) (get := fun m => m.codeChallengeMethodsSupported) (set := fun s m => { m with codeChallengeMethodsSupported := s }) rfl rfl (by decide) (by decide) (fun _ _ => rfl) (fun _ _ _ => rfl) (fun _ => rfl)) ?_
  refine chain_cons (fold_str (num := 43) (get := fun m => m.pushedAuthorizationRequestEndpoint) (set := fun s m => { m with pushedAuthorizationRequestEndpoint := s }) rfl rfl (by decide) (by decide) (fun _ => rfl)) ?_
  refine chain_cons (fold_repStr (num := 44) (get := fun m => m.pushedAuthorizationRequestEndpointAuthMethodsSupported) (set := fun s m => { m with pushedAuthorizationRequestEndpointAuthMethodsSupported := s }) rfl rfl (by decide) (by decide) (fun _ _ => rfl) (fun _ _ _ => rfl) (fun _ => rfl)) ?_
  refine chain_cons (fold_optMsg (num := 45) (get := fun m => m.mtlsEndpointAliases) (merge := mergeMTLSEndpoints) (new := {}) (dec := MTLSEndpoints.unmarshal) (set := fun s m => { m with mtlsEndpointAliases := s }) rfl rfl (by decide) (by decide) (fun _ => rfl)
    (fun s hs => (dec_of_chain (foldMTLSEndpoints _ s (h.mtlsEndpointAliases s hs))))) ?_
  refine chain_cons (fold_str (num := 46) (get := fun m => m.deviceAuthorizationEndpoint) (set := fun s m => { m with deviceAuthorizationEndpoint := s }) rfl rfl (by decide) (by decide) (fun _ => rfl)) ?_
  refine chain_cons (fold_repStr (num := 47) (get := fun m => m.dpopSigningAlgValuesSupported) (set := fun s m => { m with dpopSigningAlgValuesSupported := s }) rfl rfl (by decide) (by decide) (fun _ _ => rfl) (fun _ _ _ => rfl) (fun _ => rfl)) ?_
  refine chain_cons (fold_bool (num := 48) (get := fun m => m.tlsClientCertificateBoundAccessTokens) (set := fun s m => { m with tlsClientCertificateBoundAccessTokens := s }) rfl rfl (by decide) (by decide) (fun _ => rfl)) ?_
  refine chain_cons (fold_repStr (num := 49) (get := fun m => m.authorizationSigningAlgValuesSupported) (set := fun s m => { m with authorizationSigningAlgValuesSupported := s }) rfl rfl (by decide) (by decide) (fun _ _ => rfl) (fun _ _ _ => rfl) (fun _ => rfl)) ?_
  refine chain_cons (fold_repStr (num := 50) (get := fun m => m.authorizationEncryptionAlgValuesSupported) (set := fun s m => { m with authorizationEncryptionAlgValuesSupported := s }) rfl rfl (by decide) (by decide) (fun _ _ => rfl) (fun _ _ _ => rfl) (fun _ => rfl)) ?_
  refine chain_cons (fold_repStr (num := 51) (get := fun m => m.authorizationEncryptionEncValuesSupported) (set := fun s m => { m with authorizationEncryptionEncValuesSupported := s }) rfl rfl (by decide) (by decide) (fun _ _ => rfl) (fun _ _ _ => rfl) (fun _ => rfl)) ?_
  refine chain_cons (fold_bool (num := 52) (get := fun m => m.authorizationResponseIssParameterSupported) (set := fun s m => { m with authorizationResponseIssParameterSupported := s }) rfl rfl (by decide) (by decide) (fun _ => rfl)) ?_
  refine chain_cons (fold_repStr (num := 53) (get := fun m => m.introspectionSigningAlgValuesSupported) (set := fun s m => { m with introspectionSigningAlgValuesSupported := s }) rfl rfl (by decide) (by decide) (fun _ _ => rfl) (fun _ _ _ => rfl) (fun _ => rfl)) ?_
  refine chain_cons (fold_repStr (num := 54) (get := fun m => m.introspectionEncryptionAlgValuesSupported) (set := fun s m => { m with introspectionEncryptionAlgValuesSupported := s }) rfl rfl (by decide) (by decide) (fun _ _ => rfl) (fun _ _ _ => rfl) (fun _ => rfl)) ?_
  refine chain_cons (fold_repStr (num := 55) (get := fun m => m.introspectionEncryptionEncValuesSupported) (set := fun s m => { m with introspectionEncryptionEncValuesSupported := s }) rfl rfl (by decide) (by decide) (fun _ _ => rfl) (fun _ _ _ => rfl) (fun _ => rfl)) ?_
  refine chain_cons (fold_str (num := 56) (get := fun m => m.signedMetadata) (set := fun s m => { m with signedMetadata := s }) rfl rfl (by decide) (by decide) (fun _ => rfl)) ?_
  refine chain_cons (partOk_raw h.unknown (fun _ _ => by simp [ServerMetadata.keep]) (by simp [ServerMetadata.keep])) ?_
  exact chain_nil _

theorem foldAuthorizationRequest (m x : AuthorizationRequest) (h : x.Ok) : Chain AuthorizationRequest.fields AuthorizationRequest.keep x.parts m (mergeAuthorizationRequest m x) := by
  cases x
  refine chain_cons (fold_str (num := 1) (get := fun m => m.scope) (set := fun s m => { m with scope := s }) rfl rfl (by decide) (by decide) (fun _ => rfl)) ?_
  refine chain_cons (fold_str (num := 2) (get := fun m => m.responseType) (set := fun s m => { m with responseType := s }) rfl rfl (by decide) (by decide) (fun _ => rfl)) ?_
  refine chain_cons (fold_str (num := 3) (get := fun m => m.clientId) (set := fun s m => { m with clientId := s }) rfl rfl (by decide) (by decide) (fun _ => rfl)) ?_
  refine chain_cons (fold_str (num := 4) (get := fun m => m.redirectUri) (set := fun s m => { m with redirectUri := s }) rfl rfl (by decide) (by decide) (fun _ => rfl)) ?_
  refine chain_cons (fold_str (num := 5) (get := fun m => m.state) (set := fun s m => { m with state := s }) rfl rfl (by decide) (by decide) (fun _ => rfl)) ?_
  refine chain_cons (fold_optStr (num := 6) (get := fun m => m.responseMode) (set := fun s m => { m with responseMode := s }) rfl rfl (by decide) (by decide) (fun _ => rfl)) ?_
  refine chain_cons (fold_str (num := 7) (get := fun m => m.nonce) (set := fun s m => { m with nonce := s }) rfl rfl (by decide) (by decide) (fun _ => rfl)) ?_
  refine chain_cons (fold_optStr (num := 8) (get := fun m => m.display) (set := fun s m => { m with display := s }) rfl rfl (by decide) (by decide) (fun _ => rfl)) ?_
  refine chain_cons (fold_optStr (num := 9) (get := fun m => m.prompt) (set := fun s m => { m with prompt := s }) rfl rfl (by decide) (by decide) (fun _ => rfl)) ?_
  refine chain_cons (fold_optVarint (num := 10) (get := fun m => m.maxAge) (set := fun s m => { m with maxAge := s }) rfl rfl (by decide) (by decide) (fun _ => rfl)) ?_
  refine chain_cons (fold_optStr (num := 11) (get := fun m => m.uiLocales) (set := fun s m => { m with uiLocales := s }) rfl rfl (by decide) (by decide) (fun _ => rfl)) ?_
  refine chain_cons (fold_optStr (num := 12) (get := fun m => m.idTokenHint) (set := fun s m => { m with idTokenHint := s }) rfl rfl (by decide) (by decide) (fun _ => rfl)) ?_
  refine chain_cons (fold_optStr (num := 13) (get := fun m => m.acrValues) (set := fun s m => { m with acrValues := s }) rfl rfl (by decide) (by decide) (fun _ => rfl)) ?_
  refine chain_cons (fold_optStr (num := 14) (get := fun m => m.request) (set := fun s m => { m with request := s }) rfl rfl (by decide) (by decide) (fun _ => rfl)) ?_
  refine chain_cons (fold_optStr (num := 15) (get := fun m => m.requestUri) (set := fun s m => { m with requestUri := s }) rfl rfl (by decide) (by decide) (fun _ => rfl)) ?_
  refine chain_cons (fold_str (num := 16) (get := fun m => m.codeChallenge) (set := fun s m => { m with codeChallenge := s }) rfl rfl (by decide) (by decide) (fun _ => rfl)) ?_
  refine chain_cons (fold_str (num := 17) (get := fun m => m.codeChallengeMethod) (set := fun s m => { m with codeChallengeMethod := s }) rfl rfl (by decide) (by decide) (fun _ => rfl)) ?_
  refine chain_cons (fold_str (num := 18) (get := fun m => m.audience) (set := fun s m => { m with audience := s }) rfl rfl (by decide) (by decide) (fun _ => rfl)) ?_
  refine chain_cons (fold_optStr (num := 19) (get := fun m => m.dpopProof) (set := fun s m => { m with dpopProof := s }) rfl rfl (by decide) (by decide) (fun _ => rfl)) ?_
  refine chain_cons (fold_repStr (num := 20) (get := fun m => m.resource) (set := fun s m => { m with resource := s }) rfl rfl (by decide) (by decide) (fun _ _ => rfl) (fun _ _ _ => rfl) (fun _ => rfl)) ?_
  refine chain_cons (fold_optStr (num := 21) (get := fun m => m.iss) (set := fun s m => { m with iss := s }) rfl rfl (by decide) (by decide) (fun _ => rfl)) ?_
  refine chain_cons (fold_optStr (num := 22) (get := fun m => m.loginHintToken) (set := fun s m => { m with loginHintToken := s }) rfl rfl (by decide) (by decide) (fun _ => rfl)) ?_
  refine chain_cons (fold_optStr (num := 23) (get := fun m => m.loginHint) (set := fun s m => { m with loginHint := s }) rfl rfl (by decide) (by decide) (fun _ => rfl)) ?_
  refine chain_cons (partOk_raw h.unknown (fun _ _ => by simp [AuthorizationRequest.keep]) (by simp [AuthorizationRequest.keep])) ?_
  exact chain_nil _

theorem foldAuthorizeRequest (m x : AuthorizeRequest) (h : x.Ok) : Chain AuthorizeRequest.fields AuthorizeRequest.keep x.parts m (mergeAuthorizeRequest m x) := by
  cases x
  refine chain_cons (fold_str (num := 1) (get := fun m => m.issuer) (set := fun s m => { m with issuer := s }) rfl rfl (by decide) (by decide) (fun _ => rfl)) ?_
  refine chain_cons (fold_optMsg (num := 2) (get := fun m => m.client) (merge := mergeClient) (new := {}) (dec := Client.unmarshal) (set := fun s m => { m with client := s }) rfl rfl (by decide) (by decide) (fun _ => rfl)
    (fun s hs => (dec_of_chain (foldClient _ s (h.client s hs))))) ?_
  refine chain_cons (fold_str (num := 3) (get := fun m => m.subject) (set := fun s m => { m with subject := s }) rfl rfl (by decide) (by decide) (fun _ => rfl)) ?_
  refine chain_cons (fold_optMsg (num := 4) (get := fun m => m.request) (merge := mergeAuthorizationRequest) (new := {}) (dec := AuthorizationRequest.unmarshal) (set := fun s m => { m with request := s }) rfl rfl (by decide) (by decide) (fun _ => rfl)
    (fun s hs => (dec_of_chain (foldAuthorizationRequest _ s (h.request s hs))))) ?_
  refine chain_cons (partOk_raw h.unknown (fun _ _ => by simp [AuthorizeRequest.keep]) (by simp [AuthorizeRequest.keep])) ?_
  exact chain_nil _

theorem foldAuthorizeResponse (m x : AuthorizeResponse) (h : x.Ok) : Chain AuthorizeResponse.fields AuthorizeResponse.keep x.parts m (mergeAuthorizeResponse m x) := by
  cases x
  refine chain_cons (fold_optMsg (num := 1) (get := fun m => m.error) (merge := mergeError) (new := {}) (dec := Error.unmarshal) (set := fun s m => { m with error := s }) rfl rfl (by decide) (by decide) (fun _ => rfl)
    (fun s hs => (dec_of_chain (foldError _ s (h.error s hs))))) ?_
  refine chain_cons (fold_str (num := 2) (get := fun m => m.code) (set := fun s m => { m with code := s }) rfl rfl (by decide) (by decide) (fun _ => rfl)) ?_
  refine chain_cons (fold_str (num := 3) (get := fun m => m.state) (set := fun s m => { m with state := s }) rfl rfl (by decide) (by decide) (fun _ => rfl)) ?_
  refine chain_cons (fold_str (num := 4) (get := fun m => m.redirectUri) (set := fun s m => { m with redirectUri := s }) rfl rfl (by decide) (by decide) (fun _ => rfl)) ?_
  refine chain_cons (fold_str (num := 5) (get := fun m => m.clientId) (set := fun s m => { m with clientId := s }) rfl rfl (by decide) (by decide) (fun _ => rfl)) ?_
  refine chain_cons (fold_fix (num := 6) (get := fun m => m.expiresIn) (set := fun s m => { m with expiresIn := s }) rfl rfl (by decide) (by decide) (fun _ => rfl)) ?_
  refine chain_cons (fold_str (num := 7) (get := fun m => m.issuer) (set := fun s m => { m with issuer := s }) rfl rfl (by decide) (by decide) (fun _ => rfl)) ?_
  refine chain_cons (fold_str (num := 8) (get := fun m => m.responseMode) (set := fun s m => { m with responseMode := s }) rfl rfl (by decide) (by decide) (fun _ => rfl)) ?_
  refine chain_cons (partOk_raw h.unknown (fun _ _ => by simp [AuthorizeResponse.keep]) (by simp [AuthorizeResponse.keep])) ?_
  exact chain_nil _

theorem foldTokenConfirmation (m x : TokenConfirmation) (h : x.Ok) : Chain TokenConfirmation.fields TokenConfirmation.keep x.parts m (mergeTokenConfirmation m x) := by
  cases x
  refine chain_cons (fold_str (num := 1) (get := fun m => m.jkt) (set := fun s m => { m with jkt := s }) rfl rfl (by decide) (by decide) (fun _ => rfl)) ?_
  refine chain_cons (partOk_raw h.unknown (fun _ _ => by simp [TokenConfirmation.keep]) (by simp [TokenConfirmation.keep])) ?_
  exact chain_nil _

theorem foldRegistrationRequest (m x : RegistrationRequest) (h : x.Ok) : Chain RegistrationRequest.fields RegistrationRequest.keep x.parts m (mergeRegistrationRequest m x) := by
  cases x
  refine chain_cons (fold_str (num := 1) (get := fun m => m.issuer) (set := fun s m => { m with issuer := s }) rfl rfl (by decide) (by decide) (fun _ => rfl)) ?_
  refine chain_cons (fold_optMsg (num := 2) (get := fun m => m.client) (merge := mergeClient) (new := {}) (dec := Client.unmarshal) (set := fun s m => { m with client := s }) rfl rfl (by decide) (by decide) (fun _ => rfl)
    (fun s hs => (dec_of_chain (foldClient _ s (h.client s hs))))) ?_
  refine chain_cons (fold_optMsg (num := 3) (get := fun m => m.request) (merge := mergeAuthorizationRequest) (new := {}) (dec := AuthorizationRequest.unmarshal) (set := fun s m => { m with request := s }) rfl rfl (by decide) (by decide) (fun _ => rfl)
    (fun s hs => (dec_of_chain (foldAuthorizationRequest _ s (h.request s hs))))) ?_
  refine chain_cons (fold_optMsg (num := 4) (get := fun m => m.confirmation) (merge := mergeTokenConfirmation) (new := {}) (dec := TokenConfirmation.unmarshal) (set := fun s m => { m with confirmation := s }) rfl rfl (by decide) (by decide) (fun _ => rfl)
    (fun s hs => (dec_of_chain (foldTokenConfirmation _ s (h.confirmation s hs))))) ?_
  refine chain_cons (partOk_raw h.unknown (fun _ _ => by simp [RegistrationRequest.keep]) (by simp [RegistrationRequest.keep])) ?_
  exact chain_nil _

theorem foldRegistrationResponse (m x : RegistrationResponse) (h : x.Ok) : Chain RegistrationResponse.fields RegistrationResponse.keep x.parts m (mergeRegistrationResponse m x) := by
  cases x
  refine chain_cons (fold_optMsg (num := 1) (get := fun m => m.error) (merge := mergeError) (new := {}) (dec := Error.unmarshal) (set := fun s m => { m with error := s }) rfl rfl (by decide) (by decide) (fun _ => rfl)
    (fun s hs => (dec_of_chain (foldError _ s (h.error s hs))))) ?_
  refine chain_cons (fold_str (num := 2) (get := fun m => m.requestUri) (set := fun s m => { m with requestUri := s }) rfl rfl (by decide) (by decide) (fun _ => rfl)) ?_
  refine chain_cons (fold_fix (num := 3) (get := fun m => m.expiresIn) (set := fun s m => { m with expiresIn := s }) rfl rfl (by decide) (by decide) (fun _ => rfl)) ?_
  refine chain_cons (fold_str (num := 4) (get := fun m => m.issuer) (set := fun s m => { m with issuer := s }) rfl rfl (by decide) (by decide) (fun _ => rfl)) ?_
  refine chain_cons (partOk_raw h.unknown (fun _ _ => by simp [RegistrationResponse.keep]) (by simp [RegistrationResponse.keep])) ?_
  exact chain_nil _

theorem foldTokenMeta (m x : TokenMeta) (h : x.Ok) : Chain TokenMeta.fields TokenMeta.keep x.parts m (mergeTokenMeta m x) := by
  cases x
  refine chain_cons (fold_str (num := 1) (get := fun m => m.issuer) (set := fun s m => { m with issuer := s }) rfl rfl (by decide) (by decide) (fun _ => rfl)) ?_
  refine chain_cons (fold_str (num := 2) (get := fun m => m.subject) (set := fun s m => { m with subject := s }) rfl rfl (by decide) (by decide) (fun _ => rfl)) ?_
  refine chain_cons (fold_fix (num := 3) (get := fun m => m.issuedAt) (set := fun s m => { m with issuedAt := s }) rfl rfl (by decide) (by decide) (fun _ => rfl)) ?_
  refine chain_cons (fold_fix (num := 4) (get := fun m => m.notBefore) (set := fun s m => { m with notBefore := s }) rfl rfl (by decide) (by decide) (fun _ => rfl)) ?_
  refine chain_cons (fold_fix (num := 5) (get := fun m => m.expiresAt) (set := fun s m => { m with expiresAt := s }) rfl rfl (by decide) (by decide) (fun _ => rfl)) ?_
  refine chain_cons (fold_str (num := 6) (get := fun m => m.clientId) (set := fun s m => { m with clientId := s }) rfl rfl (by decide) (by decide) (fun _ => rfl)) ?_
  refine chain_cons (fold_str (num := 7) (get := fun m => m.scope) (set := fun s m => { m with scope := s }) rfl rfl (by decide) (by decide) (fun _ => rfl)) ?_
  refine chain_cons (fold_str (num := 8) (get := fun m => m.audience) (set := fun s m => { m with audience := s }) rfl rfl (by decide) (by decide) (fun _ => rfl)) ?_
  refine chain_cons (fold_optStr (num := 9) (get := fun m => m.acr) (set := fun s m => { m with acr := s }) rfl rfl (by decide) (by decide) (fun _ => rfl)) ?_
  refine chain_cons (fold_optFix (num := 10) (get := fun m => m.authTime) (set := fun s m => { m with authTime := s }) rfl rfl (by decide) (by decide) (fun _ => rfl)) ?_
  refine chain_cons (partOk_raw h.unknown (fun _ _ => by simp [TokenMeta.keep]) (by simp [TokenMeta.keep])) ?_
  exact chain_nil _

theorem mergeActor_eq (m : Actor) (issuer subject clientId : Str) (act : Option Actor) (u : Str) :
    mergeActor m ⟨issuer, subject, clientId, act, u⟩ =
      { issuer := later [] m.issuer issuer, subject := later [] m.subject subject, clientId := later [] m.clientId clientId,
        act := mergeOpt mergeActor {} m.act act, unknown := m.unknown ++ u } := by
  cases act <;> simp [mergeActor, mergeOpt]

theorem foldActor (n : Nat) (m x : Actor) (h : x.Ok) (hn : x.height ≤ n) :
    Chain (Actor.fields (Actor.decode n)) Actor.keep x.parts m (mergeActor m x) := by
  induction n generalizing m x with
  | zero =>
    obtain ⟨issuer, subject, clientId, act, u⟩ := x
    cases act with
    | some a => simp [Actor.height] at hn
    | none =>
      rw [Actor.parts_eq, mergeActor_eq]
      refine chain_cons (fold_str (num := 1) (get := fun m => m.issuer) (set := fun s m => { m with issuer := s }) rfl rfl (by decide) (by decide) (fun m => by cases m; rfl)) ?_
      refine chain_cons (fold_str (num := 2) (get := fun m => m.subject) (set := fun s m => { m with subject := s }) rfl rfl (by decide) (by decide) (fun m => by cases m; rfl)) ?_
      refine chain_cons (fold_str (num := 3) (get := fun m => m.clientId) (set := fun s m => { m with clientId := s }) rfl rfl (by decide) (by decide) (fun m => by cases m; rfl)) ?_
      refine chain_cons (p := .nil) ⟨[], enc_nil, fun _ => adv_nil _⟩ ?_
      refine chain_cons (partOk_raw h.unknown (fun _ _ => by simp [Actor.keep]) (by simp [Actor.keep])) ?_
      exact chain_nil _
  | succ n ih =>
    obtain ⟨issuer, subject, clientId, act, u⟩ := x
    rw [Actor.parts_eq, mergeActor_eq]
    refine chain_cons (fold_str (num := 1) (get := fun m => m.issuer) (set := fun s m => { m with issuer := s }) rfl rfl (by decide) (by decide) (fun m => by cases m; rfl)) ?_
    refine chain_cons (fold_str (num := 2) (get := fun m => m.subject) (set := fun s m => { m with subject := s }) rfl rfl (by decide) (by decide) (fun m => by cases m; rfl)) ?_
    refine chain_cons (fold_str (num := 3) (get := fun m => m.clientId) (set := fun s m => { m with clientId := s }) rfl rfl (by decide) (by decide) (fun m => by cases m; rfl)) ?_
    refine chain_cons (fold_optMsg (num := 4) (get := fun m => m.act) (merge := mergeActor) (new := {}) (dec := Actor.decode (n + 1))
      (set := fun s m => { m with act := s }) rfl rfl (by decide) (by decide) (fun m => by cases m; rfl)
      (fun s hs => dec_of_chain (ih _ s (h.act s hs) (by
        subst hs
        simp only [Actor.height] at hn
        omega)))) ?_
    refine chain_cons (partOk_raw h.unknown (fun _ _ => by simp [Actor.keep]) (by simp [Actor.keep])) ?_
    exact chain_nil _

theorem foldActor_dec (m x : Actor) (h : x.Ok) :
    ∃ e, EncAll x.parts e ∧ (e.length < 2 ^ 63 → Actor.unmarshal m e = .ok (mergeActor m x)) := by
  obtain ⟨e, he, _⟩ := foldActor _ m x h (Nat.le_refl _)
  have hs := encAll_size he
  have hh := x.height_le
  obtain ⟨e', he', hd⟩ := dec_of_chain (foldActor e.length m x h (by omega))
  obtain rfl : e = e' := Option.some.inj ((marshal_eq he).symm.trans (marshal_eq he'))
  exact ⟨e, he, hd⟩

theorem foldToken (m x : Token) (h : x.Ok) : Chain Token.fields Token.keep x.parts m (mergeToken m x) := by
  cases x
  refine chain_cons (fold_str (num := 1) (get := fun m => m.issuer) (set := fun s m => { m with issuer := s }) rfl rfl (by decide) (by decide) (fun _ => rfl)) ?_
  refine chain_cons (fold_enum (num := 2) (get := fun m => m.tokenType) (set := fun s m => { m with tokenType := s }) rfl rfl (by decide) (by decide) (fun _ => rfl)) ?_
  refine chain_cons (fold_str (num := 3) (get := fun m => m.tokenId) (set := fun s m => { m with tokenId := s }) rfl rfl (by decide) (by decide) (fun _ => rfl)) ?_
  refine chain_cons (fold_optMsg (num := 4) (get := fun m => m.metadata) (merge := mergeTokenMeta) (new := {}) (dec := TokenMeta.unmarshal) (set := fun s m => { m with metadata := s }) rfl rfl (by decide) (by decide) (fun _ => rfl)
    (fun s hs => (dec_of_chain (foldTokenMeta _ s (h.metadata s hs))))) ?_
  refine chain_cons (fold_enum (num := 5) (get := fun m => m.status) (set := fun s m => { m with status := s }) rfl rfl (by decide) (by decide) (fun _ => rfl)) ?_
  refine chain_cons (fold_str (num := 6) (get := fun m => m.value) (set := fun s m => { m with value := s }) rfl rfl (by decide) (by decide) (fun _ => rfl)) ?_
  refine chain_cons (fold_optStr (num := 7) (get := fun m => m.phantom) (set := fun s m => { m with phantom := s }) rfl rfl (by decide) (by decide) (fun _ => rfl)) ?_
  refine chain_cons (fold_optMsg (num := 8) (get := fun m => m.confirmation) (merge := mergeTokenConfirmation) (new := {}) (dec := TokenConfirmation.unmarshal) (set := fun s m => { m with confirmation := s }) rfl rfl (by decide) (by decide) (fun _ => rfl)
    (fun s hs => (dec_of_chain (foldTokenConfirmation _ s (h.confirmation s hs))))) ?_
  refine chain_cons (fold_repMsg (num := 9) (get := fun m => m.actor) (set := fun s m => { m with actor := s }) rfl rfl (by decide) (by decide) (fun _ _ => rfl) (fun _ _ _ => rfl) (fun _ => rfl)
    (fun s hs => s.dec (h.actor s hs))) ?_
  refine chain_cons (fold_repMsg (num := 10) (get := fun m => m.mayAct) (set := fun s m => { m with mayAct := s }) rfl rfl (by decide) (by decide) (fun _ _ => rfl) (fun _ _ _ => rfl) (fun _ => rfl)
    (fun s hs => s.dec (h.mayAct s hs))) ?_
  refine chain_cons (partOk_raw h.unknown (fun _ _ => by simp [Token.keep]) (by simp [Token.keep])) ?_
  exact chain_nil _

theorem foldTokenResponse (m x : TokenResponse) (h : x.Ok) : Chain TokenResponse.fields TokenResponse.keep x.parts m (mergeTokenResponse m x) := by
  cases x
  refine chain_cons (fold_optMsg (num := 1) (get := fun m => m.error) (merge := mergeError) (new := {}) (dec := Error.unmarshal) (set := fun s m => { m with error := s }) rfl rfl (by decide) (by decide) (fun _ => rfl)
    (fun s hs => (dec_of_chain (foldError _ s (h.error s hs))))) ?_
  refine chain_cons (fold_optMsg (num := 2) (get := fun m => m.accessToken) (merge := mergeToken) (new := {}) (dec := Token.unmarshal) (set := fun s m => { m with accessToken := s }) rfl rfl (by decide) (by decide) (fun _ => rfl)
    (fun s hs => (dec_of_chain (foldToken _ s (h.accessToken s hs))))) ?_
  refine chain_cons (fold_optMsg (num := 3) (get := fun m => m.refreshToken) (merge := mergeToken) (new := {}) (dec := Token.unmarshal) (set := fun s m => { m with refreshToken := s }) rfl rfl (by decide) (by decide) (fun _ => rfl)
    (fun s hs => (dec_of_chain (foldToken _ s (h.refreshToken s hs))))) ?_
  refine chain_cons (fold_optMsg (num := 4) (get := fun m => m.idToken) (merge := mergeToken) (new := {}) (dec := Token.unmarshal) (set := fun s m => { m with idToken := s }) rfl rfl (by decide) (by decide) (fun _ => rfl)
    (fun s hs => (dec_of_chain (foldToken _ s (h.idToken s hs))))) ?_
  refine chain_cons (fold_str (num := 5) (get := fun m => m.issuer) (set := fun s m => { m with issuer := s }) rfl rfl (by decide) (by decide) (fun _ => rfl)) ?_
  refine chain_cons (fold_optStr (num := 6) (get := fun m => m.issuedTokenType) (set := fun s m => { m with issuedTokenType := s }) rfl rfl (by decide) (by decide) (fun _ => rfl)) ?_
  refine chain_cons (fold_optStr (num := 7) (get := fun m => m.scope) (set := fun s m => { m with scope := s }) rfl rfl (by decide) (by decide) (fun _ => rfl)) ?_
  refine chain_cons (partOk_raw h.unknown (fun _ _ => by simp [TokenResponse.keep]) (by simp [TokenResponse.keep])) ?_
  exact chain_nil _

theorem foldDeviceAuthorizationRequest (m x : DeviceAuthorizationRequest) (h : x.Ok) : Chain DeviceAuthorizationRequest.fields DeviceAuthorizationRequest.keep x.parts m (mergeDeviceAuthorizationRequest m x) := by
  cases x
  refine chain_cons (fold_str (num := 1) (get := fun m => m.issuer) (set := fun s m => { m with issuer := s }) rfl rfl (by decide) (by decide) (fun _ => rfl)) ?_
  refine chain_cons (fold_str (num := 2) (get := fun m => m.clientId) (set := fun s m => { m with clientId := s }) rfl rfl (by decide) (by decide) (fun _ => rfl)) ?_
  refine chain_cons (fold_optStr (num := 3) (get := fun m => m.scope) (set := fun s m => { m with scope := s }) rfl rfl (by decide) (by decide) (fun _ => rfl)) ?_
  refine chain_cons (fold_optStr (num := 4) (get := fun m => m.audience) (set := fun s m => { m with audience := s }) rfl rfl (by decide) (by decide) (fun _ => rfl)) ?_
  refine chain_cons (partOk_raw h.unknown (fun _ _ => by simp [DeviceAuthorizationRequest.keep]) (by simp [DeviceAuthorizationRequest.keep])) ?_
  exact chain_nil _

theorem foldDeviceAuthorizationResponse (m x : DeviceAuthorizationResponse) (h : x.Ok) : Chain DeviceAuthorizationResponse.fields DeviceAuthorizationResponse.keep x.parts m (mergeDeviceAuthorizationResponse m x) := by
  cases x
  refine chain_cons (fold_optMsg (num := 1) (get := fun m => m.error) (merge := mergeError) (new := {}) (dec := Error.unmarshal) (set := fun s m => { m with error := s }) rfl rfl (by decide) (by decide) (fun _ => rfl)
    (fun s hs => (dec_of_chain (foldError _ s (h.error s hs))))) ?_
  refine chain_cons (fold_str (num := 2) (get := fun m => m.deviceCode) (set := fun s m => { m with deviceCode := s }) rfl rfl (by decide) (by decide) (fun _ => rfl)) ?_
  refine chain_cons (fold_str (num := 3) (get := fun m => m.userCode) (set := fun s m => { m with userCode := s }) rfl rfl (by decide) (by decide) (fun _ => rfl)) ?_
  refine chain_cons (fold_str (num := 4) (get := fun m => m.verificationUri) (set := fun s m => { m with verificationUri := s }) rfl rfl (by decide) (by decide) (fun _ => rfl)) ?_
  refine chain_cons (fold_optStr (num := 5) (get := fun m => m.verificationUriComplete) (set := fun s m => { m with verificationUriComplete := s }) rfl rfl (by decide) (by decide) (fun _ => rfl)) ?_
  refine chain_cons (fold_fix (num := 6) (get := fun m => m.expiresIn) (set := fun s m => { m with expiresIn := s }) rfl rfl (by decide) (by decide) (fun _ => rfl)) ?_
  refine chain_cons (fold_fix (num := 7) (get := fun m => m.interval) (set := fun s m => { m with interval := s }) rfl rfl (by decide) (by decide) (fun _ => rfl)) ?_
  refine chain_cons (fold_str (num := 8) (get := fun m => m.issuer) (set := fun s m => { m with issuer := s }) rfl rfl (by decide) (by decide) (fun _ => rfl)) ?_
  refine chain_cons (partOk_raw h.unknown (fun _ _ => by simp [DeviceAuthorizationResponse.keep]) (by simp [DeviceAuthorizationResponse.keep])) ?_
  exact chain_nil _

theorem foldDeviceCodeValidationRequest (m x : DeviceCodeValidationRequest) (h : x.Ok) : Chain DeviceCodeValidationRequest.fields DeviceCodeValidationRequest.keep x.parts m (mergeDeviceCodeValidationRequest m x) := by
  cases x
  refine chain_cons (fold_str (num := 1) (get := fun m => m.issuer) (set := fun s m => { m with issuer := s }) rfl rfl (by decide) (by decide) (fun _ => rfl)) ?_
  refine chain_cons (fold_str (num := 2) (get := fun m => m.userCode) (set := fun s m => { m with userCode := s }) rfl rfl (by decide) (by decide) (fun _ => rfl)) ?_
  refine chain_cons (fold_str (num := 3) (get := fun m => m.subject) (set := fun s m => { m with subject := s }) rfl rfl (by decide) (by decide) (fun _ => rfl)) ?_
  refine chain_cons (partOk_raw h.unknown (fun _ _ => by simp [DeviceCodeValidationRequest.keep]) (by simp [DeviceCodeValidationRequest.keep])) ?_
  exact chain_nil _

theorem foldDeviceCodeValidationResponse (m x : DeviceCodeValidationResponse) (h : x.Ok) : Chain DeviceCodeValidationResponse.fields DeviceCodeValidationResponse.keep x.parts m (mergeDeviceCodeValidationResponse m x) := by
  cases x
  refine chain_cons (fold_optMsg (num := 1) (get := fun m => m.error) (merge := mergeError) (new := {}) (dec := Error.unmarshal) (set := fun s m => { m with error := s }) rfl rfl (by decide) (by decide) (fun _ => rfl)
    (fun s hs => (dec_of_chain (foldError _ s (h.error s hs))))) ?_
  refine chain_cons (partOk_raw h.unknown (fun _ _ => by simp [DeviceCodeValidationResponse.keep]) (by simp [DeviceCodeValidationResponse.keep])) ?_
  exact chain_nil _

theorem foldGrantAuthorizationCode (m x : GrantAuthorizationCode) (h : x.Ok) : Chain GrantAuthorizationCode.fields GrantAuthorizationCode.keep x.parts m (mergeGrantAuthorizationCode m x) := by
  cases x
  refine chain_cons (fold_str (num := 1) (get := fun m => m.code) (set := fun s m => { m with code := s }) rfl rfl (by decide) (by decide) (fun _ => rfl)) ?_
  refine chain_cons (fold_str (num := 2) (get := fun m => m.redirectUri) (set := fun s m => { m with redirectUri := s }) rfl rfl (by decide) (by decide) (fun _ => rfl)) ?_
  refine chain_cons (fold_str (num := 3) (get := fun m => m.codeVerifier) (set := fun s m => { m with codeVerifier := s }) rfl rfl (by decide) (by decide) (fun _ => rfl)) ?_
  refine chain_cons (fold_optStr (num := 4) (get := fun m => m.dpopJkt) (set := fun s m => { m with dpopJkt := s }) rfl rfl (by decide) (by decide) (fun _ => rfl)) ?_
  refine chain_cons (partOk_raw h.unknown (fun _ _ => by simp [GrantAuthorizationCode.keep]) (by simp [GrantAuthorizationCode.keep])) ?_
  exact chain_nil _

theorem foldGrantRefreshToken (m x : GrantRefreshToken) (h : x.Ok) : Chain GrantRefreshToken.fields GrantRefreshToken.keep x.parts m (mergeGrantRefreshToken m x) := by
  cases x
  refine chain_cons (fold_str (num := 1) (get := fun m => m.refreshToken) (set := fun s m => { m with refreshToken := s }) rfl rfl (by decide) (by decide) (fun _ => rfl)) ?_
  refine chain_cons (partOk_raw h.unknown (fun _ _ => by simp [GrantRefreshToken.keep]) (by simp [GrantRefreshToken.keep])) ?_
  exact chain_nil _

theorem foldGrantDeviceCode (m x : GrantDeviceCode) (h : x.Ok) : Chain GrantDeviceCode.fields GrantDeviceCode.keep x.parts m (mergeGrantDeviceCode m x) := by
  cases x
  refine chain_cons (fold_str (num := 1) (get := fun m => m.deviceCode) (set := fun s m => { m with deviceCode := s }) rfl rfl (by decide) (by decide) (fun _ => rfl)) ?_
  refine chain_cons (fold_str (num := 2) (get := fun m => m.clientId) (set := fun s m => { m with clientId := s }) rfl rfl (by decide) (by decide) (fun _ => rfl)) ?_
  refine chain_cons (partOk_raw h.unknown (fun _ _ => by simp [GrantDeviceCode.keep]) (by simp [GrantDeviceCode.keep])) ?_
  exact chain_nil _

theorem foldGrantClientCredentials (m x : GrantClientCredentials) (h : x.Ok) : Chain GrantClientCredentials.fields GrantClientCredentials.keep x.parts m (mergeGrantClientCredentials m x) := by
  cases x
  refine chain_cons (partOk_raw h.unknown (fun _ _ => by simp [GrantClientCredentials.keep]) (by simp [GrantClientCredentials.keep])) ?_
  exact chain_nil _

theorem foldGrantTokenExchange (m x : GrantTokenExchange) (h : x.Ok) : Chain GrantTokenExchange.fields GrantTokenExchange.keep x.parts m (mergeGrantTokenExchange m x) := by
  cases x
  refine chain_cons (fold_optStr (num := 1) (get := fun m => m.requestedTokenType) (set := fun s m => { m with requestedTokenType := s }) rfl rfl (by decide) (by decide) (fun _ => rfl)) ?_
  refine chain_cons (fold_str (num := 2) (get := fun m => m.subjectToken) (set := fun s m => { m with subjectToken := s }) rfl rfl (by decide) (by decide) (fun _ => rfl)) ?_
  refine chain_cons (fold_str (num := 3) (get := fun m => m.subjectTokenType) (set := fun s m => { m with subjectTokenType := s }) rfl rfl (by decide) (by decide) (fun _ => rfl)) ?_
  refine chain_cons (fold_optStr (num := 4) (get := fun m => m.actorToken) (set := fun s m => { m with actorToken := s }) rfl rfl (by decide) (by decide) (fun _ => rfl)) ?_
  refine chain_cons (fold_optStr (num := 5) (get := fun m => m.actorTokenType) (set := fun s m => { m with actorTokenType := s }) rfl rfl (by decide) (by decide) (fun _ => rfl)) ?_
  refine chain_cons (partOk_raw h.unknown (fun _ _ => by simp [GrantTokenExchange.keep]) (by simp [GrantTokenExchange.keep])) ?_
  exact chain_nil _

theorem foldResource (m x : Resource) (h : x.Ok) : Chain Resource.fields Resource.keep x.parts m (mergeResource m x) := by
  cases x
  refine chain_cons (fold_str (num := 1) (get := fun m => m.urn) (set := fun s m => { m with urn := s }) rfl rfl (by decide) (by decide) (fun _ => rfl)) ?_
  refine chain_cons (fold_str (num := 2) (get := fun m => m.description) (set := fun s m => { m with description := s }) rfl rfl (by decide) (by decide) (fun _ => rfl)) ?_
  refine chain_cons (fold_repStr (num := 3) (get := fun m => m.urls) (set := fun s m => { m with urls := s }) rfl rfl (by decide) (by decide) (fun _ _ => rfl) (fun _ _ _ => rfl) (fun _ => rfl)) ?_
  refine chain_cons (partOk_raw h.unknown (fun _ _ => by simp [Resource.keep]) (by simp [Resource.keep])) ?_
  exact chain_nil _

theorem foldAuthorizationCodeSession (m x : AuthorizationCodeSession) (h : x.Ok) : Chain AuthorizationCodeSession.fields AuthorizationCodeSession.keep x.parts m (mergeAuthorizationCodeSession m x) := by
  cases x
  refine chain_cons (fold_optMsg (num := 1) (get := fun m => m.client) (merge := mergeClient) (new := {}) (dec := Client.unmarshal) (set := fun s m => { m with client := s }) rfl rfl (by decide) (by decide) (fun _ => rfl)
    (fun s hs => (dec_of_chain (foldClient _ s (h.client s hs))))) ?_
  refine chain_cons (fold_str (num := 2) (get := fun m => m.issuer) (set := fun s m => { m with issuer := s }) rfl rfl (by decide) (by decide) (fun _ => rfl)) ?_
  refine chain_cons (fold_str (num := 3) (get := fun m => m.subject) (set := fun s m => { m with subject := s }) rfl rfl (by decide) (by decide) (fun _ => rfl)) ?_
  refine chain_cons (fold_optMsg (num := 4) (get := fun m => m.request) (merge := mergeAuthorizationRequest) (new := {}) (dec := AuthorizationRequest.unmarshal) (set := fun s m => { m with request := s }) rfl rfl (by decide) (by decide) (fun _ => rfl)
    (fun s hs => (dec_of_chain (foldAuthorizationRequest _ s (h.request s hs))))) ?_
  refine chain_cons (partOk_raw h.unknown (fun _ _ => by simp [AuthorizationCodeSession.keep]) (by simp [AuthorizationCodeSession.keep])) ?_
  exact chain_nil _

theorem foldDeviceCodeSession (m x : DeviceCodeSession) (h : x.Ok) : Chain DeviceCodeSession.fields DeviceCodeSession.keep x.parts m (mergeDeviceCodeSession m x) := by
  cases x
  refine chain_cons (fold_optMsg (num := 1) (get := fun m => m.client) (merge := mergeClient) (new := {}) (dec := Client.unmarshal) (set := fun s m => { m with client := s }) rfl rfl (by decide) (by decide) (fun _ => rfl)
    (fun s hs => (dec_of_chain (foldClient _ s (h.client s hs))))) ?_
  refine chain_cons (fold_str (num := 2) (get := fun m => m.issuer) (set := fun s m => { m with issuer := s }) rfl rfl (by decide) (by decide) (fun _ => rfl)) ?_
  refine chain_cons (fold_fix (num := 3) (get := fun m => m.expiresAt) (set := fun s m => { m with expiresAt := s }) rfl rfl (by decide) (by decide) (fun _ => rfl)) ?_
  refine chain_cons (fold_optMsg (num := 4) (get := fun m => m.request) (merge := mergeDeviceAuthorizationRequest) (new := {}) (dec := DeviceAuthorizationRequest.unmarshal) (set := fun s m => { m with request := s }) rfl rfl (by decide) (by decide) (fun _ => rfl)
    (fun s hs => (dec_of_chain (foldDeviceAuthorizationRequest _ s (h.request s hs))))) ?_
  refine chain_cons (fold_enum (num := 5) (get := fun m => m.status) (set := fun s m => { m with status := s }) rfl rfl (by decide) (by decide) (fun _ => rfl)) ?_
  refine chain_cons (fold_str (num := 6) (get := fun m => m.deviceCode) (set := fun s m => { m with deviceCode := s }) rfl rfl (by decide) (by decide) (fun _ => rfl)) ?_
  refine chain_cons (fold_str (num := 7) (get := fun m => m.confirmationCode) (set := fun s m => { m with confirmationCode := s }) rfl rfl (by decide) (by decide) (fun _ => rfl)) ?_
  refine chain_cons (fold_optStr (num := 8) (get := fun m => m.subject) (set := fun s m => { m with subject := s }) rfl rfl (by decide) (by decide) (fun _ => rfl)) ?_
  refine chain_cons (fold_optStr (num := 9) (get := fun m => m.scope) (set := fun s m => { m with scope := s }) rfl rfl (by decide) (by decide) (fun _ => rfl)) ?_
  refine chain_cons (fold_optStr (num := 10) (get := fun m => m.audience) (set := fun s m => { m with audience := s }) rfl rfl (by decide) (by decide) (fun _ => rfl)) ?_
  refine chain_cons (partOk_raw h.unknown (fun _ _ => by simp [DeviceCodeSession.keep]) (by simp [DeviceCodeSession.keep])) ?_
  exact chain_nil _

theorem foldIntrospectRequest (m x : IntrospectRequest) (h : x.Ok) : Chain IntrospectRequest.fields IntrospectRequest.keep x.parts m (mergeIntrospectRequest m x) := by
  cases x
  refine chain_cons (fold_str (num := 1) (get := fun m => m.issuer) (set := fun s m => { m with issuer := s }) rfl rfl (by decide) (by decide) (fun _ => rfl)) ?_
  refine chain_cons (fold_optMsg (num := 2) (get := fun m => m.client) (merge := mergeClient) (new := {}) (dec := Client.unmarshal) (set := fun s m => { m with client := s }) rfl rfl (by decide) (by decide) (fun _ => rfl)
    (fun s hs => (dec_of_chain (foldClient _ s (h.client s hs))))) ?_
  refine chain_cons (fold_str (num := 3) (get := fun m => m.token) (set := fun s m => { m with token := s }) rfl rfl (by decide) (by decide) (fun _ => rfl)) ?_
  refine chain_cons (fold_optStr (num := 4) (get := fun m => m.tokenTypeHint) (set := fun s m => { m with tokenTypeHint := s }) rfl rfl (by decide) (by decide) (fun _ => rfl)) ?_
  refine chain_cons (partOk_raw h.unknown (fun _ _ => by simp [IntrospectRequest.keep]) (by simp [IntrospectRequest.keep])) ?_
  exact chain_nil _

theorem foldIntrospectResponse (m x : IntrospectResponse) (h : x.Ok) : Chain IntrospectResponse.fields IntrospectResponse.keep x.parts m (mergeIntrospectResponse m x) := by
  cases x
  refine chain_cons (fold_optMsg (num := 1) (get := fun m => m.error) (merge := mergeError) (new := {}) (dec := Error.unmarshal) (set := fun s m => { m with error := s }) rfl rfl (by decide) (by decide) (fun _ => rfl)
    (fun s hs => (dec_of_chain (foldError _ s (h.error s hs))))) ?_
  refine chain_cons (fold_optMsg (num := 2) (get := fun m => m.token) (merge := mergeToken) (new := {}) (dec := Token.unmarshal) (set := fun s m => { m with token := s }) rfl rfl (by decide) (by decide) (fun _ => rfl)
    (fun s hs => (dec_of_chain (foldToken _ s (h.token s hs))))) ?_
  refine chain_cons (partOk_raw h.unknown (fun _ _ => by simp [IntrospectResponse.keep]) (by simp [IntrospectResponse.keep])) ?_
  exact chain_nil _

theorem foldRevokeRequest (m x : RevokeRequest) (h : x.Ok) : Chain RevokeRequest.fields RevokeRequest.keep x.parts m (mergeRevokeRequest m x) := by
  cases x
  refine chain_cons (fold_str (num := 1) (get := fun m => m.issuer) (set := fun s m => { m with issuer := s }) rfl rfl (by decide) (by decide) (fun _ => rfl)) ?_
  refine chain_cons (fold_optMsg (num := 2) (get := fun m => m.client) (merge := mergeClient) (new := {}) (dec := Client.unmarshal) (set := fun s m => { m with client := s }) rfl rfl (by decide) (by decide) (fun _ => rfl)
    (fun s hs => (dec_of_chain (foldClient _ s (h.client s hs))))) ?_
  refine chain_cons (fold_str (num := 3) (get := fun m => m.token) (set := fun s m => { m with token := s }) rfl rfl (by decide) (by decide) (fun _ => rfl)) ?_
  refine chain_cons (fold_optStr (num := 4) (get := fun m => m.tokenTypeHint) (set := fun s m => { m with tokenTypeHint := s }) rfl rfl (by decide) (by decide) (fun _ => rfl)) ?_
  refine chain_cons (partOk_raw h.unknown (fun _ _ => by simp [RevokeRequest.keep]) (by simp [RevokeRequest.keep])) ?_
  exact chain_nil _

theorem foldRevokeResponse (m x : RevokeResponse) (h : x.Ok) : Chain RevokeResponse.fields RevokeResponse.keep x.parts m (mergeRevokeResponse m x) := by
  cases x
  refine chain_cons (fold_optMsg (num := 1) (get := fun m => m.error) (merge := mergeError) (new := {}) (dec := Error.unmarshal) (set := fun s m => { m with error := s }) rfl rfl (by decide) (by decide) (fun _ => rfl)
    (fun s hs => (dec_of_chain (foldError _ s (h.error s hs))))) ?_
  refine chain_cons (partOk_raw h.unknown (fun _ _ => by simp [RevokeResponse.keep]) (by simp [RevokeResponse.keep])) ?_
  exact chain_nil _

theorem foldOAuthTokenResponse (m x : OAuthTokenResponse) (h : x.Ok) : Chain OAuthTokenResponse.fields OAuthTokenResponse.keep x.parts m (mergeOAuthTokenResponse m x) := by
  cases x
  refine chain_cons (fold_str (num := 1) (get := fun m => m.accessToken) (set := fun s m => { m with accessToken := s }) rfl rfl (by decide) (by decide) (fun _ => rfl)) ?_
  refine chain_cons (fold_str (num := 2) (get := fun m => m.tokenType) (set := fun s m => { m with tokenType := s }) rfl rfl (by decide) (by decide) (fun _ => rfl)) ?_
  refine chain_cons (fold_fix (num := 3) (get := fun m => m.expiresIn) (set := fun s m => { m with expiresIn := s }) rfl rfl (by decide) (by decide) (fun _ => rfl)) ?_
  refine chain_cons (fold_optStr (num := 4) (get := fun m => m.refreshToken) (set := fun s m => { m with refreshToken := s }) rfl rfl (by decide) (by decide) (fun _ => rfl)) ?_
  refine chain_cons (fold_optStr (num := 5) (get := fun m => m.idToken) (set := fun s m => { m with idToken := s }) rfl rfl (by decide) (by decide) (fun _ => rfl)) ?_
  refine chain_cons (partOk_raw h.unknown (fun _ _ => by simp [OAuthTokenResponse.keep]) (by simp [OAuthTokenResponse.keep])) ?_
  exact chain_nil _

theorem fold_grant (grant : Option Grant) (m : TokenRequest) (h : ∀ x, grant = some x → x.Ok) :
    PartOk TokenRequest.fields TokenRequest.keep (.ofGrant grant) m { m with grant := mergeGrant m.grant grant } := by
  obtain ⟨issuer, client, grantType, scope, tokenConfirmation, resource, audience, g0, u⟩ := m
  cases grant with
  | none => exact ⟨[], enc_nil, fun _ => by cases g0 <;> exact adv_nil _⟩
  | some g =>
    have hg := h g rfl
    cases g with
    | authorizationCode x =>
      have key : ∀ y, (∃ e, EncAll x.parts e ∧ (e.length < 2 ^ 63 → GrantAuthorizationCode.unmarshal (Grant.authorizationCodeOf g0) e = .ok y)) →
          PartOk TokenRequest.fields TokenRequest.keep (.ofGrant (some (.authorizationCode x)))
            ⟨issuer, client, grantType, scope, tokenConfirmation, resource, audience, g0, u⟩
            ⟨issuer, client, grantType, scope, tokenConfirmation, resource, audience, some (.authorizationCode y), u⟩ := fun y hy =>
        partOk_msg (num := 10) (get := fun m => Grant.authorizationCodeOf m.grant)
          (set := fun s (m : TokenRequest) => { m with grant := some (.authorizationCode s) }) rfl rfl (by decide) (by decide) hy
      rcases g0 with _ | _ | _ | _ | _ | _
      · exact key _ (GrantAuthorizationCode.dec x hg)
      · exact key _ (dec_of_chain (foldGrantAuthorizationCode _ x hg))
      · exact key _ (GrantAuthorizationCode.dec x hg)
      · exact key _ (GrantAuthorizationCode.dec x hg)
      · exact key _ (GrantAuthorizationCode.dec x hg)
      · exact key _ (GrantAuthorizationCode.dec x hg)
    | clientCredentials x =>
      have key : ∀ y, (∃ e, EncAll x.parts e ∧ (e.length < 2 ^ 63 → GrantClientCredentials.unmarshal (Grant.clientCredentialsOf g0) e = .ok y)) →
          PartOk TokenRequest.fields TokenRequest.keep (.ofGrant (some (.clientCredentials x)))
            ⟨issuer, client, grantType, scope, tokenConfirmation, resource, audience, g0, u⟩
            ⟨issuer, client, grantType, scope, tokenConfirmation, resource, audience, some (.clientCredentials y), u⟩ := fun y hy =>
        partOk_msg (num := 11) (get := fun m => Grant.clientCredentialsOf m.grant)
          (set := fun s (m : TokenRequest) => { m with grant := some (.clientCredentials s) }) rfl rfl (by decide) (by decide) hy
      rcases g0 with _ | _ | _ | _ | _ | _
      · exact key _ (GrantClientCredentials.dec x hg)
      · exact key _ (GrantClientCredentials.dec x hg)
      · exact key _ (dec_of_chain (foldGrantClientCredentials _ x hg))
      · exact key _ (GrantClientCredentials.dec x hg)
      · exact key _ (GrantClientCredentials.dec x hg)
      · exact key _ (GrantClientCredentials.dec x hg)
    | deviceCode x =>
      have key : ∀ y, (∃ e, EncAll x.parts e ∧ (e.length < 2 ^ 63 → GrantDeviceCode.unmarshal (Grant.deviceCodeOf g0) e = .ok y)) →
          PartOk TokenRequest.fields TokenRequest.keep (.ofGrant (some (.deviceCode x)))
            ⟨issuer, client, grantType, scope, tokenConfirmation, resource, audience, g0, u⟩
            ⟨issuer, client, grantType, scope, tokenConfirmation, resource, audience, some (.deviceCode y), u⟩ := fun y hy =>
        partOk_msg (num := 12) (get := fun m => Grant.deviceCodeOf m.grant)
          (set := fun s (m : TokenRequest) => { m with grant := some (.deviceCode s) }) rfl rfl (by decide) (by decide) hy
      rcases g0 with _ | _ | _ | _ | _ | _
      · exact key _ (GrantDeviceCode.dec x hg)
      · exact key _ (GrantDeviceCode.dec x hg)
      · exact key _ (GrantDeviceCode.dec x hg)
      · exact key _ (dec_of_chain (foldGrantDeviceCode _ x hg))
      · exact key _ (GrantDeviceCode.dec x hg)
      · exact key _ (GrantDeviceCode.dec x hg)
    | refreshToken x =>
      have key : ∀ y, (∃ e, EncAll x.parts e ∧ (e.length < 2 ^ 63 → GrantRefreshToken.unmarshal (Grant.refreshTokenOf g0) e = .ok y)) →
          PartOk TokenRequest.fields TokenRequest.keep (.ofGrant (some (.refreshToken x)))
            ⟨issuer, client, grantType, scope, tokenConfirmation, resource, audience, g0, u⟩
            ⟨issuer, client, grantType, scope, tokenConfirmation, resource, audience, some (.refreshToken y), u⟩ := fun y hy =>
        partOk_msg (num := 13) (get := fun m => Grant.refreshTokenOf m.grant)
          (set := fun s (m : TokenRequest) => { m with grant := some (.refreshToken s) }) rfl rfl (by decide) (by decide) hy
      rcases g0 with _ | _ | _ | _ | _ | _
      · exact key _ (GrantRefreshToken.dec x hg)
      · exact key _ (GrantRefreshToken.dec x hg)
      · exact key _ (GrantRefreshToken.dec x hg)
      · exact key _ (GrantRefreshToken.dec x hg)
      · exact key _ (dec_of_chain (foldGrantRefreshToken _ x hg))
      · exact key _ (GrantRefreshToken.dec x hg)
    | tokenExchange x =>
      have key : ∀ y, (∃ e, EncAll x.parts e ∧ (e.length < 2 ^ 63 → GrantTokenExchange.unmarshal (Grant.tokenExchangeOf g0) e = .ok y)) →
          PartOk TokenRequest.fields TokenRequest.keep (.ofGrant (some (.tokenExchange x)))
            ⟨issuer, client, grantType, scope, tokenConfirmation, resource, audience, g0, u⟩
            ⟨issuer, client, grantType, scope, tokenConfirmation, resource, audience, some (.tokenExchange y), u⟩ := fun y hy =>
        partOk_msg (num := 14) (get := fun m => Grant.tokenExchangeOf m.grant)
          (set := fun s (m : TokenRequest) => { m with grant := some (.tokenExchange s) }) rfl rfl (by decide) (by decide) hy
      rcases g0 with _ | _ | _ | _ | _ | _
      · exact key _ (GrantTokenExchange.dec x hg)
      · exact key _ (GrantTokenExchange.dec x hg)
      · exact key _ (GrantTokenExchange.dec x hg)
      · exact key _ (GrantTokenExchange.dec x hg)
      · exact key _ (GrantTokenExchange.dec x hg)
      · exact key _ (dec_of_chain (foldGrantTokenExchange _ x hg))

theorem foldTokenRequest (m x : TokenRequest) (h : x.Ok) : Chain TokenRequest.fields TokenRequest.keep x.parts m (mergeTokenRequest m x) := by
  cases x
  refine chain_cons (fold_str (num := 1) (get := fun m => m.issuer) (set := fun s m => { m with issuer := s }) rfl rfl (by decide) (by decide) (fun _ => rfl)) ?_
  refine chain_cons (fold_optMsg (num := 2) (get := fun m => m.client) (merge := mergeClient) (new := {}) (dec := Client.unmarshal) (set := fun s m => { m with client := s }) rfl rfl (by decide) (by decide) (fun _ => rfl)
    (fun s hs => (dec_of_chain (foldClient _ s (h.client s hs))))) ?_
  refine chain_cons (fold_str (num := 3) (get := fun m => m.grantType) (set := fun s m => { m with grantType := s }) rfl rfl (by decide) (by decide) (fun _ => rfl)) ?_
  refine chain_cons (fold_optStr (num := 4) (get := fun m => m.scope) (set := fun s m => { m with scope := s }) rfl rfl (by decide) (by decide) (fun _ => rfl)) ?_
  refine chain_cons (fold_optMsg (num := 5) (get := fun m => m.tokenConfirmation) (merge := mergeTokenConfirmation) (new := {}) (dec := TokenConfirmation.unmarshal) (set := fun s m => { m with tokenConfirmation := s }) rfl rfl (by decide) (by decide) (fun _ => rfl)
    (fun s hs => (dec_of_chain (foldTokenConfirmation _ s (h.tokenConfirmation s hs))))) ?_
  refine chain_cons (fold_repStr (num := 6) (get := fun m => m.resource) (set := fun s m => { m with resource := s }) rfl rfl (by decide) (by decide) (fun _ _ => rfl) (fun _ _ _ => rfl) (fun _ => rfl)) ?_
  refine chain_cons (fold_optStr (num := 7) (get := fun m => m.audience) (set := fun s m => { m with audience := s }) rfl rfl (by decide) (by decide) (fun _ => rfl)) ?_
  refine chain_cons (fold_grant _ _ h.grant) ?_
  refine chain_cons (partOk_raw h.unknown (fun _ _ => by simp [TokenRequest.keep]) (by simp [TokenRequest.keep])) ?_
  exact chain_nil _

theorem foldClientMeta (m x : ClientMeta) (h : x.Ok) : Chain ClientMeta.fields ClientMeta.keep x.parts m (mergeClientMeta m x) := by
  cases x
  refine chain_cons (fold_optStr (num := 1) (get := fun m => m.applicationType) (set := fun s m => { m with applicationType := s }) rfl rfl (by decide) (by decide) (fun _ => rfl)) ?_
  refine chain_cons (fold_repStr (num := 2) (get := fun m => m.redirectUris) (set := fun s m => { m with redirectUris := s }) rfl rfl (by decide) (by decide) (fun _ _ => rfl) (fun _ _ _ => rfl) (fun _ => rfl)) ?_
  refine chain_cons (fold_optStr (num := 3) (get := fun m => m.tokenEndpointAuthMethod) (set := fun s m => { m with tokenEndpointAuthMethod := s }) rfl rfl (by decide) (by decide) (fun _ => rfl)) ?_
  refine chain_cons (fold_repStr (num := 4) (get := fun m => m.grantTypes) (set := fun s m => { m with grantTypes := s }) rfl rfl (by decide) (by decide) (fun _ _ => rfl) (fun _ _ _ => rfl) (fun _ => rfl)) ?_
  refine chain_cons (fold_repStr (num := 5) (get := fun m => m.responseTypes) (set := fun s m => { m with responseTypes := s }) rfl rfl (by decide) (by decide) (fun _ _ => rfl) (fun _ _ _ => rfl) (fun _ => rfl)) ?_
  refine chain_cons (fold_optStr (num := 6) (get := fun m => m.clientName) (set := fun s m => { m with clientName := s }) rfl rfl (by decide) (by decide) (fun _ => rfl)) ?_
  refine chain_cons (fold_map (num := 7) (get := fun m => m.clientNameI18N) (set := fun s m => { m with clientNameI18N := s }) rfl rfl (by decide) (by decide) (fun _ _ => rfl) (fun _ _ _ => rfl) (fun _ => rfl) h.clientNameI18N) ?_
  refine chain_cons (fold_optStr (num := 8) (get := fun m => m.clientUri) (set := fun s m => { m with clientUri := s }) rfl rfl (by decide) (by decide) (fun _ => rfl)) ?_
  refine chain_cons (fold_optStr (num := 9) (get := fun m => m.logoUri) (set := fun s m => { m with logoUri := s }) rfl rfl (by decide) (by decide) (fun _ => rfl)) ?_
  refine chain_cons (fold_map (num := 10) (get := fun m => m.logoUriI18N) (set := fun s m => { m with logoUriI18N := s }) rfl rfl (by decide) (by decide) (fun _ _ => rfl) (fun _ _ _ => rfl) (fun _ => rfl) h.logoUriI18N) ?_
  refine chain_cons (fold_optStr (num := 11) (get := fun m => m.scope) (set := fun s m => { m with scope := s }) rfl rfl (by decide) (by decide) (fun _ => rfl)) ?_
  refine chain_cons (fold_repStr (num := 12) (get := fun m => m.contacts) (set := fun s m => { m with contacts := s }) rfl rfl (by decide) (by decide) (fun _ _ => rfl) (fun _ _ _ => rfl) (fun _ => rfl)) ?_
  refine chain_cons (fold_optStr (num := 13) (get := fun m => m.tosUri) (set := fun s m => { m with tosUri := s }) rfl rfl (by decide) (by decide) (fun _ => rfl)) ?_
  refine chain_cons (fold_map (num := 14) (get := fun m => m.tosUriI18N) (set := fun s m => { m with tosUriI18N := s }) rfl rfl (by decide) (by decide) (fun _ _ => rfl) (fun _ _ _ => rfl) (fun _ => rfl) h.tosUriI18N) ?_
  refine chain_cons (fold_optStr (num := 15) (get := fun m => m.policyUri) (set := fun s m => { m with policyUri := s }) rfl rfl (by decide) (by decide) (fun _ => rfl)) ?_
  refine chain_cons (fold_map (num := 16) (get := fun m => m.policyUriI18N) (set := fun s m => { m with policyUriI18N := s }) rfl rfl (by decide) (by decide) (fun _ _ => rfl) (fun _ _ _ => rfl) (fun _ => rfl) h.policyUriI18N) ?_
  refine chain_cons (fold_optStr (num := 17) (get := fun m => m.jwkUri) (set := fun s m => { m with jwkUri := s }) rfl rfl (by decide) (by decide) (fun _ => rfl)) ?_
  refine chain_cons (fold_optStr (num := 18) (get := fun m => m.jwks) (set := fun s m => { m with jwks := s }) rfl rfl (by decide) (by decide) (fun _ => rfl)) ?_
  refine chain_cons (fold_optStr (num := 19) (get := fun m => m.softwareId) (set := fun s m => { m with softwareId := s }) rfl rfl (by decide) (by decide) (fun _ => rfl)) ?_
  refine chain_cons (fold_optStr (num := 20) (get := fun m => m.softwareVersion) (set := fun s m => { m with softwareVersion := s }) rfl rfl (by decide) (by decide) (fun _ => rfl)) ?_
  refine chain_cons (fold_optStr (num := 21) (get := fun m => m.softwareStatement) (set := fun s m => { m with softwareStatement := s }) rfl rfl (by decide) (by decide) (fun _ => rfl)) ?_
  refine chain_cons (fold_optStr (num := 22) (get := fun m => m.subjectType) (set := fun s m => { m with subjectType := s }) rfl rfl (by decide) (by decide) (fun _ => rfl)) ?_
  refine chain_cons (fold_optStr (num := 23) (get := fun m => m.sectorIdentifier) (set := fun s m => { m with sectorIdentifier := s }) rfl rfl (by decide) (by decide) (fun _ => rfl)) ?_
  refine chain_cons (fold_optStr (num := 24) (get := fun m => m.tlsClientAuthSubjectDn) (set := fun s m => { m with tlsClientAuthSubjectDn := s }) rfl rfl (by decide) (by decide) (fun _ => rfl)) ?_
  refine chain_cons (fold_optStr (num := 25) (get := fun m => m.tlsClientAuthSanDns) (set := fun s m => { m with tlsClientAuthSanDns := s }) rfl rfl (by decide) (by decide) (fun _ => rfl)) ?_
  refine chain_cons (fold_optStr (num := 26) (get := fun m => m.tlsClientAuthSanUri) (set := fun s m => { m with tlsClientAuthSanUri := s }) rfl rfl (by decide) (by decide) (fun _ => rfl)) ?_
  refine chain_cons (fold_optStr (num := 27) (get := fun m => m.tlsClientAuthSanIp) (set := fun s m => { m with tlsClientAuthSanIp := s }) rfl rfl (by decide) (by decide) (fun _ => rfl)) ?_
  refine chain_cons (fold_optStr (num := 28) (get := fun m => m.tlsClientAuthSanEmail) (set := fun s m => { m with tlsClientAuthSanEmail := s }) rfl rfl (by decide) (by decide) (fun _ => rfl)) ?_
  refine chain_cons (fold_optBool (num := 29) (get := fun m => m.tlsClientCertificateBoundAccessTokens) (set := fun s m => { m with tlsClientCertificateBoundAccessTokens := s }) rfl rfl (by decide) (by decide) (fun _ => rfl)) ?_
  refine chain_cons (fold_optStr (num := 30) (get := fun m => m.introspectionSignedResponseAlg) (set := fun s m => { m with introspectionSignedResponseAlg := s }) rfl rfl (by decide) (by decide) (fun _ => rfl)) ?_
  refine chain_cons (fold_optStr (num := 31) (get := fun m => m.introspectionEncryptedResponseAlg) (set := fun s m => { m with introspectionEncryptedResponseAlg := s }) rfl rfl (by decide) (by decide) (fun _ => rfl)) ?_
  refine chain_cons (fold_optStr (num := 32) (get := fun m => m.introspectionEncryptedResponseEnc) (set := fun s m => { m with introspectionEncryptedResponseEnc := s }) rfl rfl (by decide) (by decide) (fun _ => rfl)) ?_
  refine chain_cons (fold_repStr (num := 33) (get := fun m => m.responseModes) (set := fun s m => { m with responseModes := s }) rfl rfl (by decide) (by decide) (fun _ _ => rfl) (fun _ _ _ => rfl) (fun _ => rfl)) ?_
  refine chain_cons (fold_optBool (num := 34) (get := fun m => m.requirePushedAuthorizationRequests) (set := fun s m => { m with requirePushedAuthorizationRequests := s }) rfl rfl (by decide) (by decide) (fun _ => rfl)) ?_
  refine chain_cons (fold_optBool (num := 35) (get := fun m => m.requireSignedRequestObject) (set := fun s m => { m with requireSignedRequestObject := s }) rfl rfl (by decide) (by decide) (fun _ => rfl)) ?_
  refine chain_cons (fold_optBool (num := 36) (get := fun m => m.dpopBoundAccessTokens) (set := fun s m => { m with dpopBoundAccessTokens := s }) rfl rfl (by decide) (by decide) (fun _ => rfl)) ?_
  refine chain_cons (partOk_raw h.unknown (fun _ _ => by simp [ClientMeta.keep]) (by simp [ClientMeta.keep])) ?_
  exact chain_nil _

theorem foldRegisterRequest (m x : RegisterRequest) (h : x.Ok) : Chain RegisterRequest.fields RegisterRequest.keep x.parts m (mergeRegisterRequest m x) := by
  cases x
  refine chain_cons (fold_optMsg (num := 1) (get := fun m => m.metadata) (merge := mergeClientMeta) (new := {}) (dec := ClientMeta.unmarshal) (set := fun s m => { m with metadata := s }) rfl rfl (by decide) (by decide) (fun _ => rfl)
    (fun s hs => (dec_of_chain (foldClientMeta _ s (h.metadata s hs))))) ?_
  refine chain_cons (partOk_raw h.unknown (fun _ _ => by simp [RegisterRequest.keep]) (by simp [RegisterRequest.keep])) ?_
  exact chain_nil _

end Verif.Pb
