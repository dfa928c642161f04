import Verif.Spec.HttpSystem
import Verif.Proofs.Layers
import Verif.Props.Http

/-! What the layered endpoints ask the services, and what they make of the answers. -/
set_option linter.unusedSimpArgs false
namespace Verif.Http
open Verif.Prog Verif.Spec

/-- The reads on the way. -/
def reads : List Stop → List Ev
  | [] => []
  | .read ev :: w => ev :: reads w
  | .svc .. :: w => reads w

theorem reads_append (w w' : List Stop) : reads (w ++ w') = reads w ++ reads w' := by
  induction w with
  | nil => rfl
  | cons x w ih => cases x <;> simp [reads, ih]

theorem reads_map (tr : List Ev) : reads (tr.map Stop.read) = tr := by
  induction tr with
  | nil => rfl
  | cons x w ih => simp [reads, ih]

theorem mem_reads {w : List Stop} {ev : Ev} : ev ∈ reads w ↔ Stop.read ev ∈ w := by
  induction w with
  | nil => simp [reads]
  | cons x w ih => cases x <;> simp [reads, ih]

/-- The services answered on the way. -/
def prior (w : List Stop) (q : Verif.Req) (a : Verif.Resp) : Prop := ∃ j, Stop.svc j q a ∈ w

theorem formGrant (r : Req) : FormGrant r (grantOf r) := by
  unfold grantOf
  dsimp only
  split
  · rename_i h; exact .code h
  · rename_i h1
    split
    · rename_i h; exact .credentials h
    · rename_i h2
      split
      · rename_i h; exact .device h
      · rename_i h3
        split
        · rename_i h; exact .refresh h
        · rename_i h4; exact .other h1 h2 h3 h4

theorem optional_getD (s : Str) : (optional s).getD [] = s := by
  unfold optional
  split
  · rename_i h; simp [h]
  · rfl

/-- The ends of a trail that matter. -/
def End (h : Lay) : Prop := (∃ a, h = .ret a) ∨ ∃ q k, h = .svc q k

/-- Behind client authentication. -/
theorem trail_auth {S : Server} {r : Req} {h : Option Client → Lay} {w : List Stop} {h' : Lay}
    (ht : Trail (behindAuth S r h) w h') (he : End h') (hnil : ∀ id, ⟨.clientsGet id, .ok none⟩ ∉ reads w) :
    (∃ c, h' = .ret ⟨401, .error c⟩) ∨
    ∃ c tr w', w = tr.map Stop.read ++ w' ∧ FromClient S.P r tr c ∧ Trail (h (some c)) w' h' := by
  obtain ⟨tr, w', x, rfl, hx, ht⟩ := ht.ofProg he
  cases x with
  | inl a =>
    obtain ⟨c, rfl⟩ := authP_refused hx
    exact Or.inl ⟨c, ht.ofRet.2⟩
  | inr o =>
    obtain ⟨c, rfl, hf⟩ := authP_from hx fun id hm => hnil id (by
      rw [reads_append, reads_map]; exact List.mem_append_left _ hm)
    exact Or.inr ⟨c, tr, w', rfl, hf, ht⟩

/-- Behind the login. -/
theorem trail_login {r : Req} {h : Str → Lay} {w : List Stop} {h' : Lay} (ht : Trail (behindLogin r h) w h') :
    h' = .ret ⟨401, .empty⟩ ∨ (LoggedIn r g!"hello" ∧ Trail (h g!"hello") w h') := by
  unfold behindLogin at ht
  split at ht
  · exact Or.inl ht.ofRet.2
  · rename_i u p hb
    split at ht
    · exact Or.inl ht.ofRet.2
    · split at ht
      · exact Or.inl ht.ofRet.2
      · rename_i hup
        obtain ⟨rfl, rfl⟩ : u = g!"hello" ∧ p = g!"world" := by
          constructor
          · exact Decidable.byContradiction fun hn => hup (Or.inl hn)
          · exact Decidable.byContradiction fun hn => hup (Or.inr hn)
        exact Or.inr ⟨⟨rfl, hb⟩, ht⟩

/-- No service is called by an answer. -/
theorem trail_noSvc {p : Prog Resp} {w : List Stop} {q : Verif.Req} {k : Verif.Resp → Lay}
    (ht : Trail (.ofProg p .ret) w (.svc q k)) : False := by
  obtain ⟨_, _, _, _, _, ht⟩ := ht.ofProg (Or.inr ⟨q, k, rfl⟩)
  cases ht

theorem trail_answer {p : Prog Resp} {w : List Stop} {a : Resp} (ht : Trail (.ofProg p .ret) w (.ret a)) :
    ∃ tr, w = tr.map Stop.read ∧ Exec p tr (.done a) := by
  obtain ⟨tr, w', b, rfl, h1, ht⟩ := ht.ofProg (Or.inl ⟨a, rfl⟩)
  obtain ⟨rfl, e⟩ := ht.ofRet
  cases e
  exact ⟨tr, by simp, h1⟩

theorem fromClient_reads {S : Server} {r : Req} {tr : List Ev} {w : List Stop} {c : Client} (h : FromClient S.P r tr c) :
    FromClient S.P r (reads (tr.map Stop.read ++ w)) c := by
  refine h.mono fun ev hev => ?_
  rw [reads_append, reads_map]
  exact List.mem_append_left _ hev

/-- What the endpoints ask the services. -/
theorem trail_standsFor {S : Server} {route : Route} {r : Req} {w : List Stop} {q : Verif.Req} {k : Verif.Resp → Lay}
    (ht : Trail (lay S route r) w (.svc q k)) (hnil : ∀ id, ⟨.clientsGet id, .ok none⟩ ∉ reads w) :
    StandsFor S r (reads w) (prior w) route q := by
  have he : End (.svc q k) := Or.inr ⟨q, k, rfl⟩
  have hcall : ∀ {c cnf d w'}, Trail (tokenCallL S r c cnf d) w' (.svc q k) →
      w' = [] ∧ q = .token (some (tokenMsg S r c cnf)) := by
    intro c cnf d w' ht
    cases ht with
    | nil => exact ⟨rfl, rfl⟩
    | svc _ _ j a _ _ ht =>
      cases a <;> first | exact (trail_noSvc ht).elim | cases ht
  have hwe : ∀ {n e w'}, ¬ Trail (withErrorL n e) w' (.svc q k) := fun ht => trail_noSvc ht
  cases route with
  | par =>
    rcases trail_auth ht he hnil with ⟨_, e⟩ | ⟨c, tr, w', rfl, hf, ht⟩
    · cases e
    unfold parL at ht
    split at ht
    · cases ht
    rename_i hm
    have hm : r.method = g!"POST" := by simpa using hm
    dsimp only at ht
    cases ht with
    | nil => exact .parProof c hm (fromClient_reads hf)
    | svc _ _ j a _ _ ht =>
      cases a with
      | dpop t =>
        cases t with
        | none => cases ht
        | some t =>
          dsimp only at ht
          split at ht
          · cases ht
          · rename_i ar har
            cases ht with
            | nil =>
              exact .par c ar t hm (fromClient_reads hf) (Props.decodeRequest_some har) ⟨j, by simp [proofOf]⟩
            | svc _ _ j a _ _ ht =>
              cases a with
              | register res =>
                dsimp only at ht
                split at ht
                · exact (hwe ht).elim
                · cases ht
              | _ => cases ht
      | _ => cases ht
  | authorize =>
    rcases trail_login ht with e | ⟨hl, ht⟩
    · cases e
    unfold authorizeL at ht
    split at ht
    · cases ht
    rename_i hm
    have hm : r.method = g!"GET" := by simpa using hm
    split at ht
    · cases ht
    cases ht with
    | read _ _ x w' _ ht =>
      rcases x with _ | _ | client
      · cases ht
      · cases ht
      · dsimp only at ht
        split at ht
        · cases ht
        · rename_i sub hsub
          split at ht
          · cases ht
          · rename_i ar har
            cases ht with
            | nil =>
              refine .authorize g!"hello" sub client ar hm hl (by simp [reads]) ?_ (Props.decodeRequest_some har)
              split at hsub
              · rename_i hp; exact Or.inr ⟨hp, hsub⟩
              · rename_i hp; exact Or.inl ⟨hp, (Option.some.inj hsub).symm⟩
            | svc _ _ j a _ _ ht =>
              cases a with
              | authorize res =>
                dsimp only at ht
                split at ht
                · exact (hwe ht).elim
                · exact (trail_noSvc ht).elim
              | _ => cases ht
  | token =>
    rcases trail_auth ht he hnil with ⟨_, e⟩ | ⟨c, tr, w', rfl, hf, ht⟩
    · cases e
    unfold tokenL at ht
    split at ht
    · cases ht
    rename_i hm
    have hm : r.method = g!"POST" := by simpa using hm
    dsimp only at ht
    split at ht
    · cases ht
    rename_i hb
    split at ht
    · rename_i hd
      obtain ⟨rfl, rfl⟩ := hcall ht
      exact .token c none _ hm (fromClient_reads hf) (formGrant r) (by simp [hd])
        (fun _ => by simpa [hd] using hb) (by simp)
    · rename_i hd
      cases ht with
      | nil => exact .tokenProof c hm (fromClient_reads hf) hd
      | svc _ _ j a _ _ ht =>
        cases a with
        | dpop t =>
          cases t with
          | none => cases ht
          | some t =>
            obtain ⟨rfl, rfl⟩ := hcall ht
            refine .token c (some ⟨t⟩) _ hm (fromClient_reads hf) (formGrant r) (by simp [hd]) (fun h => absurd h hd) ?_
            intro k' e
            cases e
            exact ⟨j, by simp [proofOf]⟩
        | _ => cases ht
  | introspect =>
    rcases trail_auth ht he hnil with ⟨_, e⟩ | ⟨c, tr, w', rfl, hf, ht⟩
    · cases e
    cases ht with
    | nil => exact .introspect c (fromClient_reads hf)
    | svc _ _ j a _ _ ht =>
      cases a with
      | introspect res =>
        dsimp only at ht
        split at ht
        · exact (hwe ht).elim
        · split at ht
          · cases ht
          · split at ht
            · obtain ⟨_, _, u, _, _, ht⟩ := ht.ofProg he
              split at ht
              · split at ht <;> cases ht
              · cases ht
            · cases ht
      | _ => cases ht
  | revoke =>
    rcases trail_auth ht he hnil with ⟨_, e⟩ | ⟨c, tr, w', rfl, hf, ht⟩
    · cases e
    cases ht with
    | nil => exact .revoke c (fromClient_reads hf)
    | svc _ _ j a _ _ ht =>
      cases a with
      | revoke res =>
        dsimp only at ht
        split at ht
        · exact (hwe ht).elim
        · cases ht
      | _ => cases ht
  | deviceAuthorize =>
    rcases trail_auth ht he hnil with ⟨_, e⟩ | ⟨c, tr, w', rfl, hf, ht⟩
    · cases e
    unfold deviceAuthzL at ht
    split at ht
    · cases ht
    rename_i hm
    have hm : r.method = g!"POST" := by simpa using hm
    cases ht with
    | nil => exact .deviceAuthorize c _ _ hm (fromClient_reads hf) (optional_getD _) (optional_getD _)
    | svc _ _ j a _ _ ht =>
      cases a with
      | deviceAuthorize res =>
        dsimp only at ht
        split at ht
        · exact (hwe ht).elim
        · cases ht
      | _ => cases ht
  | device =>
    rcases trail_login ht with e | ⟨hl, ht⟩
    · cases e
    unfold deviceL at ht
    split at ht
    · cases ht
    split at ht
    · cases ht
    split at ht
    · rename_i hm
      cases ht with
      | nil => exact .device _ hm hl
      | svc _ _ j a _ _ ht =>
        cases a with
        | deviceValidate res =>
          dsimp only at ht
          split at ht
          · exact (hwe ht).elim
          · cases ht
        | _ => cases ht
    · cases ht

/-- What the endpoints make of the answers. -/
theorem trail_conveys {S : Server} {route : Route} {r : Req} {w : List Stop} {a : Resp}
    (ht : Trail (lay S route r) w (.ret a)) (hnil : ∀ id, ⟨.clientsGet id, .ok none⟩ ∉ reads w) :
    NoResult a ∨ ∃ j q x, Stop.svc j q x ∈ w ∧ Conveys S x a := by
  have he : End (.ret a) := Or.inl ⟨a, rfl⟩
  have hcall : ∀ {c cnf d w'}, Trail (tokenCallL S r c cnf d) w' (.ret a) →
      NoResult a ∨ ∃ j q x, Stop.svc j q x ∈ w' ∧ Conveys S x a := by
    intro c cnf d w' ht
    cases ht with
    | svc _ _ j x _ _ ht =>
      cases x with
      | token res =>
        obtain ⟨tr, rfl, hx⟩ := trail_answer ht
        obtain ⟨st, body⟩ := a
        cases body with
        | tokens b =>
          obtain ⟨t, md, now, h1, h2, h3, _, rfl, h4, _, h5, h6, _⟩ := tokenAnswer_tokens hx
          exact Or.inr ⟨j, _, _, List.mem_cons_self .., .tokens _ t md b h1 h2 h3 h4 h5 h6⟩
        | error c => exact Or.inl trivial
        | form => exact Or.inl trivial
        | _ =>
          exfalso
          unfold tokenAnswer at hx
          split at hx
          · obtain ⟨_, e⟩ := withError_done hx
            cases e
          · split at hx
            · cases hx
            · split at hx
              · cases hx
              · cases hx with
                | step _ _ _ _ _ hx => cases hx
      | _ => cases ht
  have hwe : ∀ {n e w'}, Trail (withErrorL n e) w' (.ret a) → NoResult a := by
    intro n e w' ht
    obtain ⟨tr, _, hx⟩ := trail_answer ht
    obtain ⟨c, rfl⟩ := withError_done hx
    trivial
  cases route with
  | par =>
    rcases trail_auth ht he hnil with ⟨_, e⟩ | ⟨c, tr, w', rfl, hf, ht⟩
    · cases e; exact Or.inl trivial
    unfold parL at ht
    split at ht
    · cases ht; exact Or.inl trivial
    dsimp only at ht
    cases ht with
    | svc _ _ j x _ _ ht =>
      cases x with
      | dpop t =>
        cases t with
        | none => cases ht; exact Or.inl trivial
        | some t =>
          dsimp only at ht
          split at ht
          · cases ht; exact Or.inl trivial
          · rename_i ar har
            cases ht with
            | svc _ _ j x _ _ ht =>
              cases x with
              | register res =>
                dsimp only at ht
                split at ht
                · exact Or.inl (hwe ht)
                · rename_i hg
                  cases ht
                  exact Or.inr ⟨j, _, _, (by simp <;> rfl), .par res (by simpa using hg)⟩
              | _ => cases ht
      | _ => cases ht
  | authorize =>
    rcases trail_login ht with e | ⟨hl, ht⟩
    · cases e; exact Or.inl trivial
    unfold authorizeL at ht
    split at ht
    · cases ht; exact Or.inl trivial
    split at ht
    · cases ht; exact Or.inl trivial
    cases ht with
    | read _ _ x w' _ ht =>
      rcases x with _ | _ | client
      · cases ht; exact Or.inl trivial
      · cases ht
      · dsimp only at ht
        split at ht
        · cases ht; exact Or.inl trivial
        · split at ht
          · cases ht; exact Or.inl trivial
          · cases ht with
            | svc _ _ j x _ _ ht =>
              cases x with
              | authorize res =>
                dsimp only at ht
                split at ht
                · exact Or.inl (hwe ht)
                · rename_i hg
                  obtain ⟨tr, rfl, hx⟩ := trail_answer ht
                  have hg : res.goErr = false := by simpa using hg
                  unfold deliver at hx
                  split at hx
                  · cases hx; exact Or.inl trivial
                  · split at hx
                    · cases hx
                      exact Or.inr ⟨j, _, _, (by simp <;> rfl), .authorization _ _ _ _ hg (Or.inl ⟨rfl, rfl⟩)⟩
                    · obtain ⟨t1, t2, o, _, hj, hx⟩ := exec_bind_done hx
                      cases o with
                      | none => cases hx; exact Or.inl trivial
                      | some content =>
                        cases hx
                        refine Or.inr ⟨j, _, _, (by simp <;> rfl), .authorization _ _ _ _ hg (Or.inr ?_)⟩
                        unfold Sign.jarmEncode jarmResp at hj
                        dsimp only at hj
                        repeat' split at hj
                        all_goals first
                          | (obtain ⟨_, e⟩ := exec_ret_done hj; cases e; done)
                          | (cases hj with
                             | step _ _ now _ _ hj => 
                               obtain ⟨_, e⟩ := exec_ret_done hj
                               exact ⟨_, e⟩)
              | _ => cases ht
  | token =>
    rcases trail_auth ht he hnil with ⟨_, e⟩ | ⟨c, tr, w', rfl, hf, ht⟩
    · cases e; exact Or.inl trivial
    unfold tokenL at ht
    split at ht
    · cases ht; exact Or.inl trivial
    dsimp only at ht
    split at ht
    · cases ht; exact Or.inl trivial
    split at ht
    · rcases hcall ht with h | ⟨j, q, x, h1, h2⟩
      · exact Or.inl h
      · exact Or.inr ⟨j, q, x, by simp [h1], h2⟩
    · cases ht with
      | svc _ _ j x _ _ ht =>
        cases x with
        | dpop t =>
          cases t with
          | none => cases ht; exact Or.inl trivial
          | some t =>
            rcases hcall ht with h | ⟨j, q, x, h1, h2⟩
            · exact Or.inl h
            · exact Or.inr ⟨j, q, x, by simp [h1], h2⟩
        | _ => cases ht
  | introspect =>
    rcases trail_auth ht he hnil with ⟨_, e⟩ | ⟨c, tr, w', rfl, hf, ht⟩
    · cases e; exact Or.inl trivial
    cases ht with
    | svc _ _ j x _ _ ht =>
      cases x with
      | introspect res =>
        dsimp only at ht
        split at ht
        · exact Or.inl (hwe ht)
        · rename_i hg
          have hg : res.goErr = false := by simpa using hg
          split at ht
          · cases ht
          · rename_i t hres
            split at ht
            · rename_i hact
              obtain ⟨_, _, u, rfl, _, ht⟩ := ht.ofProg he
              split at ht
              · split at ht
                · cases ht
                · rename_i md hmd
                  cases ht
                  exact Or.inr ⟨j, _, _, (by simp <;> rfl), .active res t md _ hg hres hact hmd rfl rfl rfl rfl rfl rfl rfl rfl⟩
              · cases ht
                exact Or.inr ⟨j, _, _, (by simp <;> rfl), .inactive res hg⟩
            · cases ht
              exact Or.inr ⟨j, _, _, (by simp <;> rfl), .inactive res hg⟩
      | _ => cases ht
  | revoke =>
    rcases trail_auth ht he hnil with ⟨_, e⟩ | ⟨c, tr, w', rfl, hf, ht⟩
    · cases e; exact Or.inl trivial
    cases ht with
    | svc _ _ j x _ _ ht =>
      cases x with
      | revoke res =>
        dsimp only at ht
        split at ht
        · exact Or.inl (hwe ht)
        · rename_i hg
          cases ht
          exact Or.inr ⟨j, _, _, (by simp <;> rfl), .revoked res (by simpa using hg)⟩
      | _ => cases ht
  | deviceAuthorize =>
    rcases trail_auth ht he hnil with ⟨_, e⟩ | ⟨c, tr, w', rfl, hf, ht⟩
    · cases e; exact Or.inl trivial
    unfold deviceAuthzL at ht
    split at ht
    · cases ht; exact Or.inl trivial
    cases ht with
    | svc _ _ j x _ _ ht =>
      cases x with
      | deviceAuthorize res =>
        dsimp only at ht
        split at ht
        · exact Or.inl (hwe ht)
        · rename_i hg
          cases ht
          exact Or.inr ⟨j, _, _, (by simp <;> rfl), .device res (by simpa using hg)⟩
      | _ => cases ht
  | device =>
    rcases trail_login ht with e | ⟨hl, ht⟩
    · cases e; exact Or.inl trivial
    unfold deviceL at ht
    split at ht
    · cases ht; exact Or.inl trivial
    split at ht
    · cases ht; exact Or.inl trivial
    split at ht
    · cases ht with
      | svc _ _ j x _ _ ht =>
        cases x with
        | deviceValidate res =>
          dsimp only at ht
          split at ht
          · exact Or.inl (hwe ht)
          · rename_i hg
            cases ht
            exact Or.inr ⟨j, _, _, (by simp <;> rfl), .approved res (by simpa using hg)⟩
        | _ => cases ht
    · cases ht; exact Or.inl trivial

end Verif.Http
