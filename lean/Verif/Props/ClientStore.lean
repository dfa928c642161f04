import Verif.Proofs.ClientStore

/-!
The in-memory client storage (C111): what is registered is found again, by its identifier and by its
name.
-/
namespace Verif.Props
open Verif.Spec Verif.Uniuri Verif.ClientStore

/-- **C111** (registration). A registered client is found under the identifier that was returned, as it was
given but for the identifier, for as long as neither that object is registered again nor that
identifier drawn again. -/
theorem C111_registered_partial (before after : List Op) (r : Nat) (bs id : Str) (c : Client)
    (hc : (run start before).heap[r]? = some c) (hid : id16 sizes bs = some id)
    (hd : ∀ o ∈ after, ¬ Draws id o) (hr : ∀ o ∈ after, ¬ Registers r o) :
    get (run start (before ++ .register r bs :: after)) id = some { c with clientId := id } := by
  have hlt : r < (run start before).heap.length := (List.getElem?_eq_some_iff.mp hc).1
  have hs : step (run start before) (.register r bs) = ClientStore.register (run start before) r id := by
    simp only [step, hid, if_pos hlt]
  have e : run start (before ++ .register r bs :: after) = run (step (run start before) (.register r bs)) after := by
    simp only [run, List.foldl_append, List.foldl_cons]
  rw [e]
  refine get_run (r := r) ?_ ?_ hd hr
  · rw [hs]; simp only [ClientStore.register]; rw [lookup_put, if_pos rfl]
  · rw [hs]; simp only [ClientStore.register]; rw [modify_at hc]

/-- **C111** (the shipped clients). Whatever is registered, the clients with which the storage starts stay as they are, as
long as the application does not register these very objects: no drawn identifier is one of theirs. -/
theorem C111_shipped_partial (ops : List Op) (h : ∀ o ∈ ops, ∀ r < 6, ¬ Registers r o) (id : Str) (c : Client)
    (hm : (id, c) ∈ Registry.shipped) : get (run start ops) id = some c := by
  have key : ∀ p ∈ Registry.shipped, p.1.length ≠ 16 ∧ ∃ r < 6, start.backend.lookup p.1 = some r ∧ start.heap[r]? = some p.2 := by
    decide +kernel
  obtain ⟨hl, r, hr, h1, h2⟩ := key _ hm
  exact get_run h1 h2 (fun o _ hd => hl (draws_length hd)) (fun o ho => h o ho r hr)

/-- **C111** (identifiers). If no object is registered twice, nor one of the shipped ones, then the client that
is found under an identifier has that identifier. -/
theorem C111_identifier_partial (ops : List Op) (h1 : ∀ r, timesRegistered r ops ≤ 1) (h6 : ∀ r < 6, timesRegistered r ops = 0)
    (id : Str) (c : Client) (hg : get (run start ops) id = some c) : c.clientId = id := by
  have key : Keyed (run start ops) ops := by
    clear hg
    induction ops using List.reverseRecOn with
    | nil =>
      have hs : ∀ p ∈ start.backend, p.2 < 6 ∧ ∃ c, start.heap[p.2]? = some c ∧ c.clientId = p.1 := by decide +kernel
      exact ⟨fun id r h => (hs _ (lookup_in h)).2, fun id r h => .inl (hs _ (lookup_in h)).1⟩
    | append_singleton ops o ih =>
      have hk := ih (fun r => by have := h1 r; rw [times_snoc] at this; omega)
        (fun r hr => by have := h6 r hr; rw [times_snoc] at this; omega)
      have hw := wf_run wf_start ops
      have e : run start (ops ++ [o]) = step (run start ops) o := by simp only [run, List.foldl_append, List.foldl_cons, List.foldl_nil]
      rw [e]
      cases o with
      | create c' =>
        refine ⟨fun id r h => ?_, fun id r h => ?_⟩
        · obtain ⟨c, hc, hi⟩ := hk.own id r h
          exact ⟨c, by simp only [step]; rw [List.getElem?_append_left (List.getElem?_eq_some_iff.mp hc).1]; exact hc, hi⟩
        · rw [times_snoc]; have := hk.known id r h; omega
      | register r' bs =>
        have ht : timesRegistered r' [.register r' bs] = 1 := by simp [timesRegistered]
        have same : Keyed (run start ops) (ops ++ [.register r' bs]) :=
          ⟨hk.own, fun id r h => by rw [times_snoc]; have := hk.known id r h; omega⟩
        simp only [step]
        cases hb : id16 sizes bs with
        | none => exact same
        | some id' =>
          simp only
          by_cases hr : r' < (run start ops).heap.length
          · rw [if_pos hr]
            have hnew : ¬ (r' < 6 ∨ 0 < timesRegistered r' ops) := by
              have ha := h1 r'
              have hb' := fun hlt => h6 r' hlt
              rw [times_snoc, ht] at ha hb'
              omega
            refine ⟨fun id r h => ?_, fun id r h => ?_⟩
            · simp only [ClientStore.register] at h ⊢
              rw [lookup_put] at h
              by_cases hi : id = id'
              · rw [if_pos hi] at h; cases h
                rw [modify_at (List.getElem?_eq_getElem hr)]
                exact ⟨_, rfl, hi.symm⟩
              · rw [if_neg hi] at h
                have hne : r' ≠ r := fun e => hnew (e ▸ hk.known id r h)
                obtain ⟨c, hc, hi'⟩ := hk.own id r h
                exact ⟨c, by rw [modify_other hne]; exact hc, hi'⟩
            · simp only [ClientStore.register] at h
              rw [lookup_put] at h
              rw [times_snoc]
              by_cases hi : id = id'
              · rw [if_pos hi] at h; cases h; rw [ht]; omega
              · rw [if_neg hi] at h; have := hk.known id r h; omega
          · rw [if_neg hr]; exact same
  unfold ClientStore.get at hg
  cases hl : (run start ops).backend.lookup id with
  | none => rw [hl] at hg; simp at hg
  | some r =>
    rw [hl] at hg
    obtain ⟨c', hc', hi⟩ := key.own id r hl
    simp only [Option.bind_some] at hg
    rw [hc'] at hg
    cases hg; exact hi

/-- **C111_alias_violated.** An application that registers one object twice, as a template, changes the client
that it registered first: under its identifier there is now a client with the identifier of the second. -/
theorem C111_alias_violated (c : Client) (b₁ b₂ id₁ id₂ : Str) (h1 : id16 sizes b₁ = some id₁) (h2 : id16 sizes b₂ = some id₂) :
    get (run start [.create c, .register 6 b₁, .register 6 b₂]) id₁ = some { c with clientId := id₂ } := by
  have hl : (run start [.create c]).heap.length = 7 := by simp [run, step]; decide
  have h6 : (run start [.create c]).heap[6]? = some c := by
    simp only [run, List.foldl_cons, List.foldl_nil, step]
    rw [List.getElem?_append_right (by decide)]
    rfl
  have e : run start [.create c, .register 6 b₁, .register 6 b₂] =
      ClientStore.register (ClientStore.register (run start [.create c]) 6 id₁) 6 id₂ := by
    show step (step (run start [.create c]) (.register 6 b₁)) (.register 6 b₂) = _
    have e1 : step (run start [.create c]) (.register 6 b₁) = ClientStore.register (run start [.create c]) 6 id₁ := by
      simp only [step, h1, hl]; rfl
    rw [e1]
    have hl' : (ClientStore.register (run start [.create c]) 6 id₁).heap.length = 7 := by
      simp only [ClientStore.register, List.length_modify, hl]
    simp only [step, h2, hl']; rfl
  rw [e]
  unfold ClientStore.get
  simp only [ClientStore.register]
  rw [lookup_put, lookup_put]
  have hlk : (if id₁ = id₂ then some 6 else if id₁ = id₁ then some 6 else (run start [.create c]).backend.lookup id₁) = some 6 := by
    by_cases h : id₁ = id₂ <;> simp [h]
  rw [hlk]
  rw [Option.bind_some, modify_at (modify_at h6)]

/-- **C111** (names). After any operations, a client can be found by a name exactly if it is in the storage and
has this name up to letter case; and nothing is found only if there is no such client. -/
theorem C111_name (ops : List Op) (name : Str) :
    (∀ c, GetByName (run start ops) name (some c) ↔ ∃ id, get (run start ops) id = some c ∧ SameFold c.clientName name) ∧
    (GetByName (run start ops) name none ↔ ∀ id c, get (run start ops) id = some c → ¬ SameFold c.clientName name) := by
  have hw := wf_run wf_start ops
  have hget : ∀ p ∈ (run start ops).backend, get (run start ops) p.1 = (run start ops).heap[p.2]? := by
    intro p hp
    unfold ClientStore.get
    rw [lookup_of_mem hw.nodup hp, Option.bind_some]
  have hback : ∀ id c, get (run start ops) id = some c → ∃ p ∈ (run start ops).backend, p.1 = id ∧ (run start ops).heap[p.2]? = some c := by
    intro id c h
    unfold ClientStore.get at h
    obtain ⟨r, hr, hc⟩ := Option.bind_eq_some_iff.mp h
    exact ⟨(id, r), lookup_in hr, rfl, hc⟩
  refine ⟨fun c => ⟨?_, ?_⟩, ⟨?_, ?_⟩⟩
  · rintro ⟨order, hp, he⟩
    obtain ⟨p, hm, hc, hf⟩ := findByName_some he.symm
    exact ⟨p.1, by rw [hget p (hp.mem_iff.mp hm)]; exact hc, hf⟩
  · rintro ⟨id, hg, hf⟩
    obtain ⟨p, hp, _, hc⟩ := hback id c hg
    obtain ⟨l, r, e⟩ := List.append_of_mem hp
    refine ⟨p :: (l ++ r), ?_, ?_⟩
    · rw [e]; exact List.perm_middle.symm
    · obtain ⟨k, q⟩ := p
      simp only [findByName]
      simp only at hc
      rw [hc]
      simp only
      rw [if_pos ((equalFold_iff _ _).mpr hf)]
  · rintro ⟨order, hp, he⟩ id c hg
    obtain ⟨p, hm, _, hc⟩ := hback id c hg
    exact findByName_none.mp he.symm p (hp.mem_iff.mpr hm) c hc
  · intro h
    refine ⟨(run start ops).backend, List.Perm.refl _, (findByName_none.mpr fun p hp c hc => ?_).symm⟩
    exact h p.1 c (by rw [hget p hp]; exact hc)

/-- **C111_name_violated.** The name does not determine the client: two of the shipped ones have the same. -/
theorem C111_name_violated : ∃ name a b, a ≠ b ∧ GetByName start name (some a) ∧ GetByName start name (some b) := by
  have h := (C111_name [] g!"cli-public-client").1
  refine ⟨g!"cli-public-client", Registry.publicClient, Registry.attestationClient, by decide, (h _).mpr ⟨g!"public-client", ?_, ?_⟩,
    (h _).mpr ⟨g!"attestation-client", ?_, ?_⟩⟩
  · rfl
  · exact (equalFold_iff _ _).mp (by decide)
  · rfl
  · exact (equalFold_iff _ _).mp (by decide)

/-- Two clients, registered one after the other. -/
def twoRegistered : List Op :=
  [.create { Registry.publicClient with clientName := g!"Alpha" }, .register 6 (List.replicate 17 0), .create { Registry.publicClient with clientName := g!"Beta" },
   .register 7 (List.replicate 17 1)]

example : (∀ r, timesRegistered r twoRegistered ≤ 1) ∧ (∀ r < 6, timesRegistered r twoRegistered = 0) ∧
    get (run start twoRegistered) (List.replicate 16 65) =
      some { Registry.publicClient with clientName := g!"Alpha", clientId := g!"AAAAAAAAAAAAAAAA" } ∧
    get (run start twoRegistered) g!"public-client" = some Registry.publicClient := by
  refine ⟨fun r => ?_, by decide, by decide, by decide⟩
  by_cases h6 : 6 = r
  · subst h6; decide
  · by_cases h7 : 7 = r
    · subst h7; decide
    · simp [timesRegistered, twoRegistered, h6, h7]

/-- The first of the two, registered before the second was made. -/
example : (∀ o ∈ twoRegistered.drop 2, ¬ Draws g!"AAAAAAAAAAAAAAAA" o) ∧ (∀ o ∈ twoRegistered.drop 2, ¬ Registers 6 o) ∧
    id16 sizes (List.replicate 17 0) = some g!"AAAAAAAAAAAAAAAA" ∧ id16 sizes (List.replicate 17 1) = some g!"BBBBBBBBBBBBBBBB" := by
  refine ⟨?_, ?_, by decide, by decide⟩
  · intro o ho
    rcases List.mem_cons.mp ho with rfl | ho
    · rintro ⟨_, _, e, _⟩; cases e
    · rcases List.mem_cons.mp ho with rfl | ho
      · rintro ⟨_, _, e, h⟩
        cases e
        exact absurd h (by decide)
      · cases ho
  · intro o ho
    rcases List.mem_cons.mp ho with rfl | ho
    · rintro ⟨_, e⟩; cases e
    · rcases List.mem_cons.mp ho with rfl | ho
      · rintro ⟨_, e⟩; cases e
      · cases ho

end Verif.Props
