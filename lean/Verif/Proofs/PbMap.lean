import Verif.Model.PbMap
import Verif.Proofs.Pb

/-! Maps in the binary codec, and the messages that have them. -/
namespace Verif.Wire
open Verif.Jose (Out)

/-- What is written of an entry within its length. -/
def entryBytes (k v : Str) : Str := [0xa] ++ (varint k.length ++ k) ++ ([0x12] ++ (varint v.length ++ v))

theorem entryBytes_length (k v : Str) :
    (entryBytes k v).length = 1 + k.length + sov k.length + 1 + v.length + sov v.length := by
  simp [entryBytes, varint_length]; omega

theorem enc_entry (tag k v : Str) : Enc (.entry tag k v) (tag ++ varint (entryBytes k v).length ++ entryBytes k v) := by
  refine ⟨?_, ?_⟩
  · simp only [Part.entry, List.length_append, varint_length, entryBytes_length]; omega
  · intro a x b hx
    generalize hp : tag ++ varint (entryBytes k v).length = p at hx ⊢
    have hlen : x.length = p.length + (entryBytes k v).length := by rw [hx, List.length_append]
    have hxs : x = x.take p.length ++ x.drop p.length := (List.take_append_drop _ _).symm
    have h1 : (x.take p.length).length = p.length := by rw [List.length_take]; omega
    have h2 : (x.drop p.length).length = (entryBytes k v).length := by rw [List.length_drop]; omega
    generalize x.take p.length = y at *
    generalize x.drop p.length = z at *
    subst hxs
    have hw : Writes (andThen (putBytes v) (andThen (putVarint v.length) (andThen (putByte 0x12)
        (andThen (putBytes k) (andThen (putVarint k.length) (putByte 0xa)))))) (entryBytes k v) := by
      have := writes_then (writes_bytes v) (writes_then (writes_varint v.length) (writes_then (writes_byte 0x12)
        (writes_then (writes_bytes k) (writes_then (writes_varint k.length) (writes_byte 0xa)))))
      simpa [entryBytes] using this
    have hw := hw (a ++ y) z b h2
    simp only [List.length_append] at hw
    unfold Part.entry
    simp only
    rw [show a ++ (y ++ z) ++ b = a ++ y ++ z ++ b by simp,
      show a.length + (y ++ z).length = a.length + y.length + z.length by simp; omega, hw]
    simp only
    rw [show a.length + y.length + z.length - (a.length + y.length) = (entryBytes k v).length by omega]
    have := writes_then (writes_varint (entryBytes k v).length) (writes_tag tag) a y (entryBytes k v ++ b) (by rw [h1, hp])
    rw [show a ++ y ++ entryBytes k v ++ b = a ++ y ++ (entryBytes k v ++ b) by simp, this, hp]
    simp

/-- The loop over an entry that stands anywhere reads its key and its value. -/
theorem entryLoop_append (pre post k v k0 v0 : Str) (n : Nat) (hn : (entryBytes k v).length ≤ n)
    (hl : (pre ++ entryBytes k v ++ post).length < 2 ^ 63) :
    entryLoop (pre ++ entryBytes k v ++ post) (pre.length + (entryBytes k v).length) n pre.length k0 v0 = .ok (k, v) := by
  have hb := entryBytes_length k v
  obtain ⟨n, rfl⟩ : ∃ n', n = n' + 2 := ⟨n - 2, by omega⟩
  have t1 : varint 10 = [0xa] := by rw [varint, if_neg (by decide)]; rfl
  have t2 : varint 18 = [0x12] := by rw [varint, if_neg (by decide)]; rfl
  -- the key
  have e1 := readVarint64 (v := 10) (by decide) pre (varint k.length ++ k ++ ([0x12] ++ (varint v.length ++ v)) ++ post)
  rw [t1] at e1
  have e2 := readBytes_append (pre ++ [0xa]) k ([0x12] ++ (varint v.length ++ v) ++ post) (by
    simp only [entryBytes, List.length_append] at hl ⊢; omega)
  -- the value
  have e3 := readVarint64 (v := 18) (by decide) (pre ++ [0xa] ++ (varint k.length ++ k)) (varint v.length ++ v ++ post)
  rw [t2] at e3
  have e4 := readBytes_append (pre ++ [0xa] ++ (varint k.length ++ k) ++ [0x12]) v post (by
    simp only [entryBytes, List.length_append] at hl ⊢; omega)
  have d1 : pre ++ [0xa] ++ (varint k.length ++ k ++ ([0x12] ++ (varint v.length ++ v)) ++ post) = pre ++ entryBytes k v ++ post := by
    simp [entryBytes]
  have d2 : pre ++ [0xa] ++ (varint k.length ++ k) ++ ([0x12] ++ (varint v.length ++ v) ++ post) = pre ++ entryBytes k v ++ post := by
    simp [entryBytes]
  have d3 : pre ++ [0xa] ++ (varint k.length ++ k) ++ [0x12] ++ (varint v.length ++ v ++ post) = pre ++ entryBytes k v ++ post := by
    simp [entryBytes]
  have d4 : pre ++ [0xa] ++ (varint k.length ++ k) ++ [0x12] ++ (varint v.length ++ v) ++ post = pre ++ entryBytes k v ++ post := by
    simp [entryBytes]
  rw [d1] at e1
  rw [d2] at e2
  rw [d3] at e3
  rw [d4] at e4
  have hk := varint_length k.length
  have hv := varint_length v.length
  simp only [List.length_append, List.length_singleton] at e1 e2 e3 e4
  unfold entryLoop
  rw [if_pos (by omega), e1]
  simp only
  rw [if_pos (by decide), e2]
  simp only
  unfold entryLoop
  rw [if_pos (by omega), e3]
  simp only
  rw [if_neg (by decide), if_pos (by decide), e4]
  simp only
  cases n with
  | zero => unfold entryLoop; rw [if_neg (by omega)]
  | succ n => unfold entryLoop; rw [if_neg (by omega)]

theorem entryLoop_ne_panic (d : Str) (post n i : Nat) (k v : Str) : entryLoop d post n i k v ≠ .panic := by
  induction n generalizing i k v with
  | zero => unfold entryLoop; split <;> simp
  | succ n ih =>
    unfold entryLoop
    split
    · split
      · simp
      · rename_i h; exact absurd h (readVarint_ne_panic _ _ _ _ _ _)
      · split
        · split
          · simp
          · rename_i h; exact absurd h (readBytes_ne_panic _ _)
          · exact ih _ _ _
        · split
          · split
            · simp
            · rename_i h; exact absurd h (readBytes_ne_panic _ _)
            · exact ih _ _ _
          · split
            · simp
            · rename_i h; exact absurd h (skip_ne_panic _ _)
            · split
              · simp
              · split
                · simp
                · exact ih _ _ _
    · simp

/-- The bound on the rounds of the loop over an entry is no restriction. -/
theorem entryLoop_fuel (d : Str) (post n n' i : Nat) (k v : Str) (hn : post - i ≤ n) (hn' : n ≤ n') :
    entryLoop d post n' i k v = entryLoop d post n i k v := by
  induction n generalizing i k v n' with
  | zero =>
    cases n' with
    | zero => rfl
    | succ n' => unfold entryLoop; rw [if_neg (by omega), if_neg (by omega)]
  | succ n ih =>
    obtain ⟨n'', rfl⟩ : ∃ n'', n' = n'' + 1 := ⟨n' - 1, by omega⟩
    unfold entryLoop
    split
    · split
      · rfl
      · rfl
      · rename_i hv
        have hv := readVarint_ok hv
        split
        · split
          · rfl
          · rfl
          · rename_i hb
            have := readBytes_ok hb
            exact ih _ _ _ _ (by omega) (by omega)
        · split
          · split
            · rfl
            · rfl
            · rename_i hb
              have := readBytes_ok hb
              exact ih _ _ _ _ (by omega) (by omega)
          · split
            · rfl
            · rfl
            · rename_i hs
              have := (skipLoop_ok hs).1
              split
              · rfl
              · split
                · rfl
                · exact ih _ _ _ _ (by omega) (by omega)
    · rfl

theorem put_fst (k v : Str) (l : List (Str × Str)) :
    (put k v l).map Prod.fst = if k ∈ l.map Prod.fst then l.map Prod.fst else l.map Prod.fst ++ [k] := by
  induction l with
  | nil => simp [put]
  | cons e l ih =>
    unfold put
    by_cases h : e.1 = k
    · simp [h]
    · have h' : ¬ k = e.1 := fun x => h x.symm
      rw [if_neg h]
      simp only [List.map_cons, ih, List.mem_cons, h', false_or]
      split <;> simp

theorem put_nodup {l : List (Str × Str)} (h : (l.map Prod.fst).Nodup) (k v : Str) : ((put k v l).map Prod.fst).Nodup := by
  rw [put_fst]
  split
  · exact h
  · rename_i hk
    exact List.nodup_append.2 ⟨h, by simp, fun a ha b hb => by rw [List.mem_singleton.1 hb]; exact fun e => hk (e ▸ ha)⟩

theorem put_new {l : List (Str × Str)} {k : Str} (h : k ∉ l.map Prod.fst) (v : Str) : put k v l = l ++ [(k, v)] := by
  induction l with
  | nil => rfl
  | cons e l ih =>
    simp only [List.map_cons, List.mem_cons, not_or] at h
    unfold put
    rw [if_neg (fun x => h.1 x.symm), ih h.2]
    rfl

variable {M S : Type} {fields : List (Nat × Handler M)} {unknown : Str → M → M}

theorem partOk_entry {num : Nat} {get : M → List (Str × Str)} {set : List (Str × Str) → M → M} {tag k v : Str} {m : M}
    (ht : tag = tagOf num 2) (hf : fields.lookup num = some (onMap get set)) (hn : 1 ≤ num) (hn' : num < 2000) :
    PartOk fields unknown (.entry tag k v) m (set (put k v (get m)) m) := by
  refine ⟨_, enc_entry tag k v, fun _ => ?_⟩
  rw [List.append_assoc, ht]
  refine adv_field hf hn hn' (by decide) (by decide) ?_
  intro pre post hl
  have hl' := hl
  simp only [List.length_append] at hl'
  unfold onMap
  rw [if_neg (by decide)]
  have e1 := readVarint64 (v := (entryBytes k v).length) (by omega) pre (entryBytes k v ++ post)
  have e2 := entryLoop_append (pre ++ varint (entryBytes k v).length) post k v [] [] _ (Nat.le_refl _) (by
    simp only [List.length_append]; omega)
  rw [show pre ++ varint (entryBytes k v).length ++ (entryBytes k v ++ post) =
    pre ++ (varint (entryBytes k v).length ++ entryBytes k v) ++ post by simp] at e1
  rw [show pre ++ varint (entryBytes k v).length ++ entryBytes k v ++ post =
    pre ++ (varint (entryBytes k v).length ++ entryBytes k v) ++ post by simp, List.length_append] at e2
  rw [e1]
  simp only
  rw [if_neg (by omega), if_neg (by omega), if_neg (by simp only [List.length_append]; omega), e2]
  simp [Nat.add_assoc]

theorem foldl_put {get : M → List (Str × Str)} {set : List (Str × Str) → M → M} (h1 : ∀ x m, get (set x m) = x)
    (h2 : ∀ x y m, set x (set y m) = set x m) (h3 : ∀ m, set (get m) m = m) (l : List (Str × Str)) (m : M)
    (hd : ((get m ++ l).map Prod.fst).Nodup) :
    l.foldl (fun m e => set (put e.1 e.2 (get m)) m) m = set (get m ++ l) m := by
  induction l generalizing m with
  | nil => simp [h3]
  | cons e l ih =>
    have hk : e.1 ∉ (get m).map Prod.fst := by
      rw [List.map_append] at hd
      intro h
      exact (List.nodup_append.1 hd).2.2 _ h e.1 (by simp) rfl
    rw [List.foldl_cons, put_new hk, ih _ (by rw [h1]; simpa using hd), h1, h2]
    simp

theorem partOk_map {num : Nat} {get : M → List (Str × Str)} {set : List (Str × Str) → M → M} {tag : Str}
    {l : List (Str × Str)} {m : M} (ht : tag = tagOf num 2) (hf : fields.lookup num = some (onMap get set)) (hn : 1 ≤ num)
    (hn' : num < 2000) (h1 : ∀ x m, get (set x m) = x) (h2 : ∀ x y m, set x (set y m) = set x m)
    (h3 : ∀ m, set (get m) m = m) (h0 : get m = []) (hd : (l.map Prod.fst).Nodup) :
    PartOk fields unknown (.all (l.map fun (k, v) => .entry tag k v)) m (set l m) := by
  have := partOk_rep (part := fun (k, v) => .entry tag k v) (app := fun e m => set (put e.1 e.2 (get m)) m) (l := l) (m := m)
    (fun e _ m => partOk_entry (fields := fields) (unknown := unknown) (k := e.1) (v := e.2) (m := m) ht hf hn hn')
  rwa [foldl_put h1 h2 h3 l m (by rw [h0]; exact hd), h0, List.nil_append] at this

theorem partOk_optBool {num : Nat} {set : Option Bool → M → M} {tag : Str} {x : Option Bool} {m : M} (ht : tag = tagOf num 0)
    (hf : fields.lookup num = some (onBool fun b => set (some b))) (hn : 1 ≤ num) (hn' : num < 2000) (h0 : set none m = m) :
    PartOk fields unknown (.optBool tag x) m (set x m) := by
  cases x with
  | none =>
    rw [h0]
    exact ⟨[], enc_nil, fun _ => adv_nil m⟩
  | some b =>
    have hv : varint (if b then 1 else 0) = [if b then 1 else 0] := by
      cases b <;> (rw [varint, if_neg (by decide)]; rfl)
    refine ⟨tag ++ varint (if b then 1 else 0), ⟨?_, ?_⟩, fun _ => ?_⟩
    · simp [Part.optBool, hv]
    · rw [hv]
      exact writes_then (writes_byte _) (writes_tag tag)
    · rw [ht]
      refine adv_field hf hn hn' (by decide) (by decide) ?_
      intro pre post hl
      unfold onBool
      rw [if_neg (by decide), readVarint64 (by cases b <;> decide)]
      cases b <;> simp

theorem sane_map {P : M → Prop} {get : M → List (Str × Str)} {set : List (Str × Str) → M → M}
    (h : ∀ k v m, P m → P (set (put k v (get m)) m)) : Sane P (onMap get set) := by
  refine ⟨fun d wt i m => ?_, fun d wt i m m' j h' => ?_, fun d wt i m m' j hp h' => ?_⟩
  · unfold onMap
    split
    · simp
    · split
      · simp
      · rename_i hb; exact absurd hb (readVarint_ne_panic _ _ _ _ _ _)
      · split
        · simp
        · split
          · simp
          · split
            · simp
            · split
              · simp
              · rename_i hb; exact absurd hb (entryLoop_ne_panic _ _ _ _ _ _)
              · simp
  all_goals
    unfold onMap at h'
    split at h'
    · simp at h'
    · split at h'
      · simp at h'
      · simp at h'
      · rename_i hv
        have hv := readVarint_ok hv
        split at h'
        · simp at h'
        · split at h'
          · simp at h'
          · split at h'
            · simp at h'
            · split at h'
              · simp at h'
              · simp at h'
              · simp only [Out.ok.injEq, Prod.mk.injEq] at h'
                obtain ⟨rfl, rfl⟩ := h'
                first
                  | exact h _ _ _ hp
                  | exact ⟨by omega, by omega⟩

end Verif.Wire

namespace Verif.Pb
open Verif.Jose (Out)
open Verif.Wire

/-! #### `ClientMeta` -/

/-- The kept records are records of other fields, and a map has a key once. -/
structure ClientMeta.Ok (m : ClientMeta) : Prop where
  unknown : Unknowns (ClientMeta.fields.map Prod.fst) m.unknown
  clientNameI18N : (m.clientNameI18N.map Prod.fst).Nodup
  logoUriI18N : (m.logoUriI18N.map Prod.fst).Nodup
  tosUriI18N : (m.tosUriI18N.map Prod.fst).Nodup
  policyUriI18N : (m.policyUriI18N.map Prod.fst).Nodup

theorem ClientMeta.Ok.empty : ClientMeta.Ok {} := ⟨.nil, .nil, .nil, .nil, .nil⟩

theorem ClientMeta.Ok.same {m m' : ClientMeta} (h : m.Ok) (h0 : m'.unknown = m.unknown)
    (h1 : m'.clientNameI18N = m.clientNameI18N)
    (h2 : m'.logoUriI18N = m.logoUriI18N)
    (h3 : m'.tosUriI18N = m.tosUriI18N)
    (h4 : m'.policyUriI18N = m.policyUriI18N) :
    m'.Ok :=
  ⟨h0 ▸ h.unknown, h1 ▸ h.clientNameI18N, h2 ▸ h.logoUriI18N, h3 ▸ h.tosUriI18N, h4 ▸ h.policyUriI18N⟩

theorem ClientMeta.chain (x : ClientMeta) (h : x.Ok) : Chain ClientMeta.fields ClientMeta.keep x.parts {} x := by
  cases x
  refine chain_cons (partOk_optStr (num := 1) (set := fun s m => { m with applicationType := s }) rfl rfl (by decide) (by decide) rfl) ?_
  refine chain_cons (partOk_repStr (num := 2) (get := fun m => m.redirectUris) (set := fun s m => { m with redirectUris := s }) rfl rfl (by decide) (by decide) (fun _ _ => rfl) (fun _ _ _ => rfl) (fun _ => rfl) rfl) ?_
  refine chain_cons (partOk_optStr (num := 3) (set := fun s m => { m with tokenEndpointAuthMethod := s }) rfl rfl (by decide) (by decide) rfl) ?_
  refine chain_cons (partOk_repStr (num := 4) (get := fun m => m.grantTypes) (set := fun s m => { m with grantTypes := s }) rfl rfl (by decide) (by decide) (fun _ _ => rfl) (fun _ _ _ => rfl) (fun _ => rfl) rfl) ?_
  refine chain_cons (partOk_repStr (num := 5) (get := fun m => m.responseTypes) (set := fun s m => { m with responseTypes := s }) rfl rfl (by decide) (by decide) (fun _ _ => rfl) (fun _ _ _ => rfl) (fun _ => rfl) rfl) ?_
  refine chain_cons (partOk_optStr (num := 6) (set := fun s m => { m with clientName := s }) rfl rfl (by decide) (by decide) rfl) ?_
  refine chain_cons (partOk_map (num := 7) (get := fun m => m.clientNameI18N) (set := fun s m => { m with clientNameI18N := s }) rfl rfl (by decide) (by decide) (fun _ _ => rfl) (fun _ _ _ => rfl) (fun _ => rfl) rfl h.clientNameI18N) ?_
  refine chain_cons (partOk_optStr (num := 8) (set := fun s m => { m with clientUri := s }) rfl rfl (by decide) (by decide) rfl) ?_
  refine chain_cons (partOk_optStr (num := 9) (set := fun s m => { m with logoUri := s }) rfl rfl (by decide) (by decide) rfl) ?_
  refine chain_cons (partOk_map (num := 10) (get := fun m => m.logoUriI18N) (set := fun s m => { m with logoUriI18N := s }) rfl rfl (by decide) (by decide) (fun _ _ => rfl) (fun _ _ _ => rfl) (fun _ => rfl) rfl h.logoUriI18N) ?_
  refine chain_cons (partOk_optStr (num := 11) (set := fun s m => { m with scope := s }) rfl rfl (by decide) (by decide) rfl) ?_
  refine chain_cons (partOk_repStr (num := 12) (get := fun m => m.contacts) (set := fun s m => { m with contacts := s }) rfl rfl (by decide) (by decide) (fun _ _ => rfl) (fun _ _ _ => rfl) (fun _ => rfl) rfl) ?_
  refine chain_cons (partOk_optStr (num := 13) (set := fun s m => { m with tosUri := s }) rfl rfl (by decide) (by decide) rfl) ?_
  refine chain_cons (partOk_map (num := 14) (get := fun m => m.tosUriI18N) (set := fun s m => { m with tosUriI18N := s }) rfl rfl (by decide) (by decide) (fun _ _ => rfl) (fun _ _ _ => rfl) (fun _ => rfl) rfl h.tosUriI18N) ?_
  refine chain_cons (partOk_optStr (num := 15) (set := fun s m => { m with policyUri := s }) rfl rfl (by decide) (by decide) rfl) ?_
  refine chain_cons (partOk_map (num := 16) (get := fun m => m.policyUriI18N) (set := fun s m => { m with policyUriI18N := s }) rfl rfl (by decide) (by decide) (fun _ _ => rfl) (fun _ _ _ => rfl) (fun _ => rfl) rfl h.policyUriI18N) ?_
  refine chain_cons (partOk_optStr (num := 17) (set := fun s m => { m with jwkUri := s }) rfl rfl (by decide) (by decide) rfl) ?_
  refine chain_cons (partOk_optStr (num := 18) (set := fun s m => { m with jwks := s }) rfl rfl (by decide) (by decide) rfl) ?_
  refine chain_cons (partOk_optStr (num := 19) (set := fun s m => { m with softwareId := s }) rfl rfl (by decide) (by decide) rfl) ?_
  refine chain_cons (partOk_optStr (num := 20) (set := fun s m => { m with softwareVersion := s }) rfl rfl (by decide) (by decide) rfl) ?_
  refine chain_cons (partOk_optStr (num := 21) (set := fun s m => { m with softwareStatement := s }) rfl rfl (by decide) (by decide) rfl) ?_
  refine chain_cons (partOk_optStr (num := 22) (set := fun s m => { m with subjectType := s }) rfl rfl (by decide) (by decide) rfl) ?_
  refine chain_cons (partOk_optStr (num := 23) (set := fun s m => { m with sectorIdentifier := s }) rfl rfl (by decide) (by decide) rfl) ?_
  refine chain_cons (partOk_optStr (num := 24) (set := fun s m => { m with tlsClientAuthSubjectDn := s }) rfl rfl (by decide) (by decide) rfl) ?_
  refine chain_cons (partOk_optStr (num := 25) (set := fun s m => { m with tlsClientAuthSanDns := s }) rfl rfl (by decide) (by decide) rfl) ?_
  refine chain_cons (partOk_optStr (num := 26) (set := fun s m => { m with tlsClientAuthSanUri := s }) rfl rfl (by decide) (by decide) rfl) ?_
  refine chain_cons (partOk_optStr (num := 27) (set := fun s m => { m with tlsClientAuthSanIp := s }) rfl rfl (by decide) (by decide) rfl) ?_
  refine chain_cons (partOk_optStr (num := 28) (set := fun s m => { m with tlsClientAuthSanEmail := s }) rfl rfl (by decide) (by decide) rfl) ?_
  refine chain_cons (partOk_optBool (num := 29) (set := fun s m => { m with tlsClientCertificateBoundAccessTokens := s }) rfl rfl (by decide) (by decide) rfl) ?_
  refine chain_cons (partOk_optStr (num := 30) (set := fun s m => { m with introspectionSignedResponseAlg := s }) rfl rfl (by decide) (by decide) rfl) ?_
  refine chain_cons (partOk_optStr (num := 31) (set := fun s m => { m with introspectionEncryptedResponseAlg := s }) rfl rfl (by decide) (by decide) rfl) ?_
  refine chain_cons (partOk_optStr (num := 32) (set := fun s m => { m with introspectionEncryptedResponseEnc := s }) rfl rfl (by decide) (by decide) rfl) ?_
  refine chain_cons (partOk_repStr (num := 33) (get := fun m => m.responseModes) (set := fun s m => { m with responseModes := s }) rfl rfl (by decide) (by decide) (fun _ _ => rfl) (fun _ _ _ => rfl) (fun _ => rfl) rfl) ?_
  refine chain_cons (partOk_optBool (num := 34) (set := fun s m => { m with requirePushedAuthorizationRequests := s }) rfl rfl (by decide) (by decide) rfl) ?_
  refine chain_cons (partOk_optBool (num := 35) (set := fun s m => { m with requireSignedRequestObject := s }) rfl rfl (by decide) (by decide) rfl) ?_
  refine chain_cons (partOk_optBool (num := 36) (set := fun s m => { m with dpopBoundAccessTokens := s }) rfl rfl (by decide) (by decide) rfl) ?_
  refine chain_cons (partOk_raw h.unknown (fun _ _ => by simp [ClientMeta.keep]) rfl) ?_
  exact chain_nil _

theorem ClientMeta.dec (x : ClientMeta) (h : x.Ok) :
    ∃ e, EncAll x.parts e ∧ (e.length < 2 ^ 63 → ClientMeta.unmarshal {} e = .ok x) :=
  dec_of_chain (x.chain h)

theorem ClientMeta.sane : SaneDec ClientMeta.Ok ClientMeta.unmarshal := by
  refine saneDec ?_ fun u m h hu => { h with unknown := .snoc h.unknown hu }
  refine forall_field (sane_str fun _ _ h => h.same rfl rfl rfl rfl rfl) ?_
  refine forall_field (sane_str fun _ _ h => h.same rfl rfl rfl rfl rfl) ?_
  refine forall_field (sane_str fun _ _ h => h.same rfl rfl rfl rfl rfl) ?_
  refine forall_field (sane_str fun _ _ h => h.same rfl rfl rfl rfl rfl) ?_
  refine forall_field (sane_str fun _ _ h => h.same rfl rfl rfl rfl rfl) ?_
  refine forall_field (sane_str fun _ _ h => h.same rfl rfl rfl rfl rfl) ?_
  refine forall_field (sane_map (P := ClientMeta.Ok) (get := fun m => m.clientNameI18N) fun k v _ h => { h with clientNameI18N := put_nodup h.clientNameI18N k v }) ?_
  refine forall_field (sane_str fun _ _ h => h.same rfl rfl rfl rfl rfl) ?_
  refine forall_field (sane_str fun _ _ h => h.same rfl rfl rfl rfl rfl) ?_
  refine forall_field (sane_map (P := ClientMeta.Ok) (get := fun m => m.logoUriI18N) fun k v _ h => { h with logoUriI18N := put_nodup h.logoUriI18N k v }) ?_
  refine forall_field (sane_str fun _ _ h => h.same rfl rfl rfl rfl rfl) ?_
  refine forall_field (sane_str fun _ _ h => h.same rfl rfl rfl rfl rfl) ?_
  refine forall_field (sane_str fun _ _ h => h.same rfl rfl rfl rfl rfl) ?_
  refine forall_field (sane_map (P := ClientMeta.Ok) (get := fun m => m.tosUriI18N) fun k v _ h => { h with tosUriI18N := put_nodup h.tosUriI18N k v }) ?_
  refine forall_field (sane_str fun _ _ h => h.same rfl rfl rfl rfl rfl) ?_
  refine forall_field (sane_map (P := ClientMeta.Ok) (get := fun m => m.policyUriI18N) fun k v _ h => { h with policyUriI18N := put_nodup h.policyUriI18N k v }) ?_
  refine forall_field (sane_str fun _ _ h => h.same rfl rfl rfl rfl rfl) ?_
  refine forall_field (sane_str fun _ _ h => h.same rfl rfl rfl rfl rfl) ?_
  refine forall_field (sane_str fun _ _ h => h.same rfl rfl rfl rfl rfl) ?_
  refine forall_field (sane_str fun _ _ h => h.same rfl rfl rfl rfl rfl) ?_
  refine forall_field (sane_str fun _ _ h => h.same rfl rfl rfl rfl rfl) ?_
  refine forall_field (sane_str fun _ _ h => h.same rfl rfl rfl rfl rfl) ?_
  refine forall_field (sane_str fun _ _ h => h.same rfl rfl rfl rfl rfl) ?_
  refine forall_field (sane_str fun _ _ h => h.same rfl rfl rfl rfl rfl) ?_
  refine forall_field (sane_str fun _ _ h => h.same rfl rfl rfl rfl rfl) ?_
  refine forall_field (sane_str fun _ _ h => h.same rfl rfl rfl rfl rfl) ?_
  refine forall_field (sane_str fun _ _ h => h.same rfl rfl rfl rfl rfl) ?_
  refine forall_field (sane_str fun _ _ h => h.same rfl rfl rfl rfl rfl) ?_
  refine forall_field (sane_bool fun _ _ h => h.same rfl rfl rfl rfl rfl) ?_
  refine forall_field (sane_str fun _ _ h => h.same rfl rfl rfl rfl rfl) ?_
  refine forall_field (sane_str fun _ _ h => h.same rfl rfl rfl rfl rfl) ?_
  refine forall_field (sane_str fun _ _ h => h.same rfl rfl rfl rfl rfl) ?_
  refine forall_field (sane_str fun _ _ h => h.same rfl rfl rfl rfl rfl) ?_
  refine forall_field (sane_bool fun _ _ h => h.same rfl rfl rfl rfl rfl) ?_
  refine forall_field (sane_bool fun _ _ h => h.same rfl rfl rfl rfl rfl) ?_
  refine forall_field (sane_bool fun _ _ h => h.same rfl rfl rfl rfl rfl) ?_
  exact forall_none

/-! #### `RegisterRequest` -/

structure RegisterRequest.Ok (m : RegisterRequest) : Prop where
  unknown : Unknowns (RegisterRequest.fields.map Prod.fst) m.unknown
  metadata : ∀ x, m.metadata = some x → x.Ok

theorem RegisterRequest.Ok.empty : RegisterRequest.Ok {} := ⟨.nil, ok_none⟩

theorem RegisterRequest.chain (x : RegisterRequest) (h : x.Ok) : Chain RegisterRequest.fields RegisterRequest.keep x.parts {} x := by
  cases x
  refine chain_cons (partOk_optMsg (num := 1) (get := fun m => m.metadata.getD {}) (set := fun s m => { m with metadata := s }) (dec := ClientMeta.unmarshal) rfl rfl (by decide) (by decide) rfl (fun s hs => s.dec (h.metadata s hs))) ?_
  refine chain_cons (partOk_raw h.unknown (fun _ _ => by simp [RegisterRequest.keep]) rfl) ?_
  exact chain_nil _

theorem RegisterRequest.dec (x : RegisterRequest) (h : x.Ok) :
    ∃ e, EncAll x.parts e ∧ (e.length < 2 ^ 63 → RegisterRequest.unmarshal {} e = .ok x) :=
  dec_of_chain (x.chain h)

theorem RegisterRequest.sane : SaneDec RegisterRequest.Ok RegisterRequest.unmarshal := by
  refine saneDec ?_ fun u m h hu => ⟨.snoc h.unknown hu, h.metadata⟩
  refine forall_field (sane_msg ClientMeta.sane (fun m h => ok_getD h.metadata .empty) fun s m h hs => ⟨h.unknown, ok_some hs⟩) ?_
  exact forall_none

end Verif.Pb
