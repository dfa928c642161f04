import Mathlib.Data.List.Induction
import Verif.Spec.ClientStore
import Verif.Proofs.Uniuri
import Verif.Proofs.Strings

/-! The in-memory client storage: invariants. -/
namespace Verif.Props
open Verif.Spec Verif.Uniuri Verif.ClientStore

theorem modify_at {l : List Client} {f : Client → Client} {r : Nat} {c : Client} (h : l[r]? = some c) : (l.modify r f)[r]? = some (f c) := by
  simp [h]

theorem modify_other {l : List Client} {f : Client → Client} {r r' : Nat} (h : r' ≠ r) : (l.modify r' f)[r]? = l[r]? := by
  rw [List.getElem?_modify]; simp [h]

theorem lookup_in {m : List (Str × Nat)} {k : Str} {v : Nat} (h : m.lookup k = some v) : (k, v) ∈ m := by
  induction m with
  | nil => simp at h
  | cons p l ih =>
    obtain ⟨a, b⟩ := p
    rw [List.lookup_cons] at h
    by_cases hk : k = a
    · subst hk; simp at h; subst h; exact List.mem_cons_self
    · rw [show (k == a) = false from by simp [hk]] at h
      exact List.mem_cons_of_mem _ (ih h)

theorem lookup_put (m : List (Str × Nat)) (k : Str) (v : Nat) (k' : Str) :
    (put m k v).lookup k' = if k' = k then some v else m.lookup k' := by
  unfold put
  rw [List.lookup_cons]
  by_cases h : k' = k
  · subst h; simp
  · rw [if_neg h, show (k' == k) = false from by simp [h]]
    simp only
    induction m with
    | nil => rfl
    | cons p l ih =>
      obtain ⟨a, b⟩ := p
      by_cases ha : a = k
      · subst ha
        rw [List.filter_cons_of_neg (by simp), ih, List.lookup_cons,
          show (k' == a) = false from by simp [h]]
      · rw [List.filter_cons_of_pos (by simpa using ha), List.lookup_cons, List.lookup_cons, ih]

/-- Keys of the map are unique, and it points to objects. -/
structure WfStore (s : Clients) : Prop where
  nodup : (s.backend.map Prod.fst).Nodup
  there : ∀ p ∈ s.backend, p.2 < s.heap.length
  shipped : 6 ≤ s.heap.length

theorem wf_start : WfStore start := ⟨by decide, by decide, by decide⟩

theorem wf_step {s : Clients} (h : WfStore s) (o : Op) : WfStore (step s o) := by
  cases o with
  | create c =>
    exact ⟨h.nodup, fun p hp => by have := h.there p hp; simp only [step, List.length_append]; omega,
      by have := h.shipped; simp only [step, List.length_append]; omega⟩
  | register r bs =>
    simp only [step]
    cases id16 sizes bs with
    | none => exact h
    | some id =>
      simp only
      by_cases hr : r < s.heap.length
      · rw [if_pos hr]
        refine ⟨?_, ?_, ?_⟩
        · simp only [ClientStore.register, put, List.map_cons, List.nodup_cons]
          refine ⟨?_, (h.nodup.sublist (List.filter_sublist.map _))⟩
          intro hm
          obtain ⟨p, hp, e⟩ := List.mem_map.mp hm
          have := (List.mem_filter.mp hp).2
          simp [e] at this
        · intro p hp
          simp only [ClientStore.register, List.length_modify]
          rcases List.mem_cons.mp hp with rfl | hp
          · exact hr
          · exact h.there p (List.mem_filter.mp hp).1
        · simpa only [ClientStore.register, List.length_modify] using h.shipped
      · rw [if_neg hr]; exact h

theorem wf_run {s : Clients} (h : WfStore s) (ops : List Op) : WfStore (run s ops) := by
  induction ops generalizing s with
  | nil => exact h
  | cons o ops ih => exact ih (wf_step h o)

/-- What is found stays found, unless its object or its identifier is registered again. -/
theorem get_step {s : Clients} {id : Str} {r : Nat} {c : Client} (hl : s.backend.lookup id = some r) (hc : s.heap[r]? = some c)
    {o : Op} (hd : ¬ Draws id o) (hr : ¬ Registers r o) :
    (step s o).backend.lookup id = some r ∧ (step s o).heap[r]? = some c := by
  have hlt : r < s.heap.length := (List.getElem?_eq_some_iff.mp hc).1
  cases o with
  | create c' => exact ⟨hl, by simp only [step]; rw [List.getElem?_append_left hlt]; exact hc⟩
  | register r' bs =>
    simp only [step]
    cases hb : id16 sizes bs with
    | none => exact ⟨hl, hc⟩
    | some id' =>
      simp only
      by_cases h : r' < s.heap.length
      · rw [if_pos h]
        have h1 : id ≠ id' := fun e => hd ⟨r', bs, rfl, e ▸ hb⟩
        have h2 : r' ≠ r := fun e => hr ⟨bs, by rw [e]⟩
        refine ⟨?_, ?_⟩
        · simp only [ClientStore.register]; rw [lookup_put, if_neg h1]; exact hl
        · simp only [ClientStore.register]; rw [modify_other h2]; exact hc
      · rw [if_neg h]; exact ⟨hl, hc⟩

theorem get_run {s : Clients} {id : Str} {r : Nat} {c : Client} (hl : s.backend.lookup id = some r) (hc : s.heap[r]? = some c)
    {ops : List Op} (hd : ∀ o ∈ ops, ¬ Draws id o) (hr : ∀ o ∈ ops, ¬ Registers r o) : get (run s ops) id = some c := by
  induction ops generalizing s with
  | nil => simp only [run, List.foldl_nil, ClientStore.get, hl, Option.bind_some, hc]
  | cons o ops ih =>
    have h := get_step hl hc (hd o List.mem_cons_self) (hr o List.mem_cons_self)
    exact ih h.1 h.2 (fun o' h' => hd o' (List.mem_cons_of_mem _ h')) (fun o' h' => hr o' (List.mem_cons_of_mem _ h'))

theorem draws_length {id : Str} {o : Op} (h : Draws id o) : id.length = 16 := by
  obtain ⟨_, bs, _, hb⟩ := h
  exact (newLenChars_out (chars := Verif.Lib.stdChars) (by decide) hb).1

/-- Every object is found under at most one key, its own identifier. -/
structure Keyed (s : Clients) (ops : List Op) : Prop where
  own : ∀ id r, s.backend.lookup id = some r → ∃ c, s.heap[r]? = some c ∧ c.clientId = id
  known : ∀ id r, s.backend.lookup id = some r → r < 6 ∨ 0 < timesRegistered r ops

theorem times_snoc (r : Nat) (ops : List Op) (o : Op) :
    timesRegistered r (ops ++ [o]) = timesRegistered r ops + timesRegistered r [o] := by
  simp only [timesRegistered, List.countP_append]

theorem findByName_some {heap : List Client} {name : Str} {c : Client} : ∀ {l : List (Str × Nat)}, findByName heap name l = some c →
    ∃ p ∈ l, heap[p.2]? = some c ∧ SameFold c.clientName name := by
  intro l
  induction l with
  | nil => intro h; simp [findByName] at h
  | cons p l ih =>
    obtain ⟨k, r⟩ := p
    intro h
    unfold findByName at h
    cases hr : heap[r]? with
    | none =>
      rw [hr] at h
      obtain ⟨p, hp, h'⟩ := ih h
      exact ⟨p, List.mem_cons_of_mem _ hp, h'⟩
    | some c' =>
      rw [hr] at h
      simp only at h
      by_cases hf : Go.equalFold c'.clientName name = true
      · rw [if_pos hf] at h; cases h
        exact ⟨_, List.mem_cons_self, hr, (equalFold_iff _ _).mp hf⟩
      · rw [if_neg hf] at h
        obtain ⟨p, hp, h'⟩ := ih h
        exact ⟨p, List.mem_cons_of_mem _ hp, h'⟩

theorem findByName_none {heap : List Client} {name : Str} : ∀ {l : List (Str × Nat)}, findByName heap name l = none ↔
    ∀ p ∈ l, ∀ c, heap[p.2]? = some c → ¬ SameFold c.clientName name := by
  intro l
  induction l with
  | nil => simp [findByName]
  | cons p l ih =>
    obtain ⟨k, r⟩ := p
    unfold findByName
    cases hr : heap[r]? with
    | none => simp only [ih, List.forall_mem_cons, hr]; simp
    | some c' =>
      simp only [List.forall_mem_cons, hr]
      by_cases hf : Go.equalFold c'.clientName name = true
      · rw [if_pos hf]
        simp only [reduceCtorEq, false_iff]
        exact fun h => h.1 c' rfl ((equalFold_iff _ _).mp hf)
      · rw [if_neg hf, ih]
        refine ⟨fun h => ⟨fun c e => ?_, h⟩, fun h => h.2⟩
        cases e
        exact fun hs => hf ((equalFold_iff _ _).mpr hs)

theorem lookup_of_mem {m : List (Str × Nat)} (h : (m.map Prod.fst).Nodup) {p : Str × Nat} (hp : p ∈ m) : m.lookup p.1 = some p.2 := by
  induction m with
  | nil => simp at hp
  | cons q l ih =>
    obtain ⟨a, b⟩ := q
    rw [List.lookup_cons]
    rcases List.mem_cons.mp hp with rfl | hp
    · simp
    · have hn := List.nodup_cons.mp h
      have : p.1 ≠ a := fun e => hn.1 (List.mem_map.mpr ⟨p, hp, e⟩)
      rw [show (p.1 == a) = false from by simp [this]]
      exact ih hn.2 hp

end Verif.Props
