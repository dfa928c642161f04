import Verif.Props.Device
import Verif.Props.Tokens

/-! Whom tokens speak for, over histories. -/
namespace Verif.Props
open Verif.Spec Verif.Prog Verif.TokenSvc Verif.Store
variable {E : Env}

/-- **C88.** Any interleaving, any failures, interrupted requests included: a token handed
to the store names a subject only if a user of this name had been through an
authorization before; otherwise it comes, by way of any chain of exchanges, from a client
credentials request. No chain of refreshes and exchanges ever changes the subject, and
refresh tokens always speak for a user. -/
theorem C88_subject_origin (E : Env) (s : St) (ls : List Label) (hE : Empty s) (hK : NoKeyClash E (run E s ls))
    (n : Nat) (iss : Str) (t : Token) (h : Creates (run E s ls) n iss t) :
    ∃ md, t.metadata = some md ∧
      ((∃ q, UserCame (run E s ls) n iss q ∧ md.subject = q.subject ∧ md.subject ≠ []) ∨
       (md.subject = [] ∧ t.tokenType = .accessToken ∧ ClientCame (run E s ls) n iss)) := by
  induction n using Nat.strongRecOn generalizing iss t with
  | ind n ih =>
    obtain ⟨e, he, hc⟩ := h
    obtain ⟨md', hm', hiss⟩ := create_issuer hE hK ⟨e, he, hc⟩
    obtain ⟨q, c0, cl, hq, hc0, hcl, hm⟩ := entry_tkCreate he hc
    have at_ : ∀ {md : TokenMeta} {cnf}, ATAt (callsOf E e.tid ((run E s ls).log.take n)) cl md cnf t →
        (∃ md', t.metadata = some md' ∧ md'.subject = md.subject) ∧ t.tokenType = .accessToken := by
      rintro md cnf ⟨now, jti, v, _, _, rfl⟩; exact ⟨⟨_, rfl, rfl⟩, rfl⟩
    have rt_ : ∀ {md : TokenMeta} {cnf}, RTAt (callsOf E e.tid ((run E s ls).log.take n)) cl md cnf t →
        ∃ md', t.metadata = some md' ∧ md'.subject = md.subject := by
      rintro md cnf ⟨now, jti, v, _, _, rfl⟩; exact ⟨_, rfl, rfl⟩
    have either : ∀ {md : TokenMeta} {cnf} {P : Prop}, (ATAt (callsOf E e.tid ((run E s ls).log.take n)) cl md cnf t ∨
        (P ∧ RTAt (callsOf E e.tid ((run E s ls).log.take n)) cl md cnf t)) →
        ∃ md', t.metadata = some md' ∧ md'.subject = md.subject := by
      rintro md cnf P (h | ⟨_, h⟩)
      · exact (at_ h).1
      · exact rt_ h
    -- tokens made from stored tokens
    have older : ∀ {v x i'}, ⟨.tkGetVal i' v, .ok (some x)⟩ ∈ callsOf E e.tid ((run E s ls).log.take n) → i' = iss →
        ∃ md, x.metadata = some md ∧
          ((∃ q, UserCame (run E s ls) n iss q ∧ md.subject = q.subject ∧ md.subject ≠ []) ∨
           (md.subject = [] ∧ x.tokenType = .accessToken ∧ ClientCame (run E s ls) n iss)) := by
      rintro v x _ hget rfl
      obtain ⟨m, e1, hmn, g1, g2, g3⟩ := mem_calls_take hget
      obtain ⟨m0, e0, t0, f1, f2, f3, f4, f5⟩ := token_origin' hE hK g1 g3
      obtain ⟨md0, k1, k2⟩ := ih m0 (by omega) _ _ ⟨e0, f2, f3⟩
      refine ⟨md0, f5.metadata.trans k1, ?_⟩
      rcases k2 with ⟨q, ⟨m, e, code, cs, a1, a2⟩, a3⟩ | ⟨a1, a2, m, e, t, q, a3, a4⟩
      · exact Or.inl ⟨q, ⟨m, e, code, cs, by omega, a2⟩, a3⟩
      · exact Or.inr ⟨a1, by rw [f5.tokenType]; exact a2, m, e, t, q, by omega, a4⟩
    cases hm with
    | code g sess ar _ hg hreg hget hdel hreq hok ho ht =>
      obtain ⟨md, h1, h2⟩ := either ht
      refine ⟨md, h1, Or.inl ?_⟩
      obtain ⟨m, e1, hmn, g1, g2, g3⟩ := mem_calls_take hget
      obtain ⟨m0, e0, i', k', c1, c2, c3, c4, c5, c6⟩ := code_origin hE.codes g1 g3
      obtain ⟨rfl, rfl⟩ := noKeyClash_code hK c2 g1 (by rw [c3]; simp [cells]) (by rw [Entry.cmd_eq g3]; simp [cells]) c4
      obtain ⟨q', r, eff, cl', b1, b2, b3, b4, b5, b6, b7, b8, b9, b10⟩ := entry_csReg c2 c3
      refine ⟨q', ⟨m0, e0, _, _, by omega, c2, c3, b1, b9.symm, by rw [b10]⟩, ?_, ?_⟩
      · rw [h2, b10]
      · rw [h2, b10]; exact b3
    | cc _ hg hreg hty ht =>
      obtain ⟨⟨md, h1, h2⟩, h3⟩ := at_ ht
      exact ⟨md, h1, Or.inr ⟨h2, h3, n, e, t, q, Nat.le_refl _, he, hc, hq, hg⟩⟩
    | device dc ref sess dreq sub now _ hg hreg hget hnow hreq hcl hexp hst hsub ht =>
      exfalso
      obtain ⟨m, e1, hmn, g1, g2, g3⟩ := mem_calls_take hget
      exact ((unapproved_run (E := E) hE.heap ls).2 m e1 g1 sess (List.mem_of_getElem? (Entry.dsGetDev_ok g3))).2 hst
    | refresh v rt md now _ hg hreg hget hnow hst hty hmd hexp hown ht =>
      obtain ⟨md1, h1, h2⟩ : ∃ md', t.metadata = some md' ∧ md'.subject = md.subject := by
        rcases ht with ht | ht
        · exact (at_ ht).1
        · exact rt_ ht
      have hi : q.issuer = md.issuer := by
        obtain ⟨m, e1, hmn, g1, g2, g3⟩ := mem_calls_take hget
        obtain ⟨m0, e0, t0, f1, f2, f3, f4, f5⟩ := token_origin' hE hK g1 g3
        obtain ⟨md0, k1, k2⟩ := create_issuer hE hK ⟨e0, f2, f3⟩
        rw [f5.metadata, k1] at hmd
        simp at hmd; subst hmd; exact k2.symm
      obtain ⟨md0, k1, k2⟩ := older hget hi
      rw [hmd] at k1; simp at k1; subst k1
      refine ⟨md1, h1, Or.inl ?_⟩
      rcases k2 with ⟨q', a1, a2, a3⟩ | ⟨_, a2, _⟩
      · exact ⟨q', a1, h2.trans a2, by rw [h2]; exact a3⟩
      · rw [hty] at a2; cases a2
    | exchange g st md now now2 jti v aud hg hreg hget hnow hnow2 hv hst hty hmd hexp =>
      obtain ⟨md0, k1, k2⟩ := older hget rfl
      rw [hmd] at k1; simp at k1; subst k1
      refine ⟨_, rfl, ?_⟩
      rcases k2 with ⟨q', a1, a2, a3⟩ | ⟨a1, a2, a3⟩
      · exact Or.inl ⟨q', a1, a2, a3⟩
      · exact Or.inr ⟨a1, rfl, a3⟩

/-- A token of a client of its own account. -/
def credentials : List Label :=
  .arrive (.token (some {
    issuer := Demo.issuer, client := some Demo.client, grantType := g!"client_credentials", grant := some .clientCredentials })) ::
    Demo.calls 0 [[], [], g!"id-cc", g!"cc", []]

example : (∃ n t, Creates (run Demo.env Demo.store life) n Demo.issuer t ∧
      (∃ md, t.metadata = some md ∧ md.subject = g!"alice") ∧ t.tokenType = .refreshToken) ∧
    Empty Demo.store ∧ NoKeyClash Demo.env (run Demo.env Demo.store credentials) ∧
    ∃ n t, Creates (run Demo.env Demo.store credentials) n Demo.issuer t ∧ ∃ md, t.metadata = some md ∧ md.subject = [] := by
  refine ⟨?_, Demo.store_empty, Demo.noKeyClash_of (by decide +kernel), ?_⟩
  · have h : ((run Demo.env Demo.store life).log.any fun e => match e.cmd with
        | .tkCreate i t => decide (i = Demo.issuer ∧ t.metadata.map (·.subject) = some g!"alice" ∧ t.tokenType = .refreshToken)
        | _ => false) = true := by decide +kernel
    obtain ⟨e, he, h1⟩ := List.any_eq_true.1 h
    obtain ⟨n, hn⟩ := List.getElem?_of_mem he
    split at h1
    · rename_i i t hc
      obtain ⟨rfl, h2, h3⟩ := of_decide_eq_true h1
      cases hm : t.metadata with
      | none => simp [hm] at h2
      | some md => exact ⟨n, t, ⟨e, hn, hc⟩, ⟨md, hm, by simpa [hm] using h2⟩, h3⟩
    · cases h1
  · have h : ((run Demo.env Demo.store credentials).log.any fun e => match e.cmd with
        | .tkCreate i t => decide (i = Demo.issuer ∧ t.metadata.map (·.subject) = some [])
        | _ => false) = true := by decide +kernel
    obtain ⟨e, he, h1⟩ := List.any_eq_true.1 h
    obtain ⟨n, hn⟩ := List.getElem?_of_mem he
    split at h1
    · rename_i i t hc
      obtain ⟨rfl, h2⟩ := of_decide_eq_true h1
      cases hm : t.metadata with
      | none => simp [hm] at h2
      | some md => exact ⟨n, t, ⟨e, hn, hc⟩, ⟨md, hm, by simpa [hm] using h2⟩⟩
    · cases h1

end Verif.Props
