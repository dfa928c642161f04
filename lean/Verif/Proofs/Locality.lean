import Verif.Proofs.Prog
import Verif.Proofs.Footprint
import Verif.Spec.Locality

/-! Programs that stay outside a part of the stores. -/
namespace Verif
open Verif.Prog Verif.Spec Verif.Store
variable {E : Env} {H : Part}

/-- The call touches nothing in the part. -/
def Outside (E : Env) (H : Part) : Cmd → Prop
  | .arGet i u | .arDel i u | .arReg i u _ => ¬ H.request (requestKey E i u)
  | .csGet i c | .csDel i c | .csReg i c _ => ¬ H.code (codeKey E i c)
  | .dsGetUser i c | .dsDel i c => ¬ H.user (userKey E i c)
  | .dsGetDev i c => ¬ H.device (devKey E i c)
  | .dsReg _ c d => ¬ H.user (userKey E d.issuer c) ∧ ¬ H.device (devKey E d.issuer d.deviceCode) ∧ H.served d.issuer
  | .dsAssign r d => ¬ H.ref r ∧ ¬ H.device (devKey E d.issuer d.deviceCode) ∧ H.served d.issuer
  | .dsValidate _ c r d =>
    ¬ H.user (userKey E d.issuer c) ∧ ¬ H.device (devKey E d.issuer d.deviceCode) ∧ ¬ H.ref r
  | .tkGetVal i v => ¬ H.token (tokenKey E i v)
  | .tkCreate i t => ¬ H.token (tokenKey E i t.value) ∧ ¬ H.id t.tokenId ∧ MetaServed H t
  | .tkRevoke _ id => ¬ H.id id
  | _ => True

/-- A session found outside the part. -/
def SessOut (E : Env) (H : Part) : SRes (Option (Nat × DeviceSession)) → Prop
  | .ok (some (r, d)) => ¬ H.ref r ∧ ¬ H.device (devKey E d.issuer d.deviceCode) ∧ H.served d.issuer
  | _ => True

def TokOut (H : Part) : SRes (Option Token) → Prop
  | .ok (some t) => ¬ H.id t.tokenId ∧ MetaServed H t
  | _ => True

def GenOut (E : Env) (H : Part) : SRes Str → Prop
  | .ok v => Fresh E H v
  | _ => True

/-- The answer leads nowhere into the part. -/
def AnsOut (E : Env) (H : Part) : (c : Cmd) → c.Res → Prop
  | .jti => fun v => Fresh E H v
  | .dsGetUser _ _ => SessOut E H
  | .dsGetDev _ _ => SessOut E H
  | .tkGetVal _ _ => TokOut H
  | .genCode _ => GenOut E H
  | .genUri _ => GenOut E H
  | .genDev _ => GenOut E H
  | .genUser _ => GenOut E H
  | .genAT _ => GenOut E H
  | .genRT _ => GenOut E H
  | _ => fun _ => True

/-- The program stays outside the part. -/
def Stays {α : Type} (E : Env) (H : Part) : Prog α → Prop
  | .ret _ => True
  | .panic => True
  | .op c k => Outside E H c ∧ ∀ r, AnsOut E H c r → Stays E H (k r)

theorem stays_bind {α β : Type} {p : Prog α} {f : α → Prog β} (hp : Stays E H p) (hf : ∀ a, Stays E H (f a)) :
    Stays E H (p >>= f) := by
  induction p with
  | ret a => exact hf a
  | panic => trivial
  | op c k ih => exact ⟨hp.1, fun r hr => ih r (hp.2 r hr)⟩

/-! ### The stores -/

/-- What a call outside the part does to two stores that agree outside the part. -/
structure Par {ρ : Type} (E : Env) (H : Part) (A : ρ → Prop) (s : St) (p p' : ρ × St) : Prop where
  ans : p.1 = p'.1
  out : A p.1
  agree : AgreeOutside H p.2 p'.2
  sep : Separate E H p.2
  kept : AgreeWithin H s p.2

theorem within_refl (s : St) : AgreeWithin H s s :=
  ⟨fun _ _ => rfl, fun _ _ => rfl, fun _ _ => rfl, fun _ _ => rfl, fun _ _ => rfl, fun _ _ => rfl, fun _ _ => rfl⟩

theorem within_trans {s s' s'' : St} (h : AgreeWithin H s s') (h' : AgreeWithin H s' s'') : AgreeWithin H s s'' :=
  ⟨fun k hk => (h'.codes k hk).trans (h.codes k hk), fun k hk => (h'.requests k hk).trans (h.requests k hk),
   fun k hk => (h'.user k hk).trans (h.user k hk), fun k hk => (h'.device k hk).trans (h.device k hk),
   fun k hk => (h'.heap k hk).trans (h.heap k hk), fun k hk => (h'.token k hk).trans (h.token k hk),
   fun k hk => (h'.id k hk).trans (h.id k hk)⟩

theorem par_faulty {α : Type} {A : SRes α → Prop} {s s' : St} (f : Fault) {p p' : SRes α × St}
    (ha : AgreeOutside H s s') (hs : Separate E H s) (hA : A (.error .other)) (h : Par E H A s p p') :
    Par E H A s (faulty f s p) (faulty f s' p') := by
  cases f with
  | none => exact h
  | before => exact ⟨rfl, hA, ha, hs, within_refl _⟩
  | after => exact ⟨rfl, hA, h.agree, h.sep, h.kept⟩

theorem par_gen {s s' : St} {ch : Choice} (ha : AgreeOutside H s s') (hs : Separate E H s) (hf : Fresh E H ch.str) :
    Par E H (GenOut E H) s (gen ch s) (gen ch s') := by
  unfold gen
  cases ch.fault with
  | none => exact ⟨rfl, hf, ha, hs, within_refl _⟩
  | before => exact ⟨rfl, trivial, ha, hs, within_refl _⟩
  | after => exact ⟨rfl, trivial, ha, hs, within_refl _⟩

theorem upd_agree {α : Type} {P : Str → Prop} {m m' : Str → Option α} (h : ∀ k, ¬ P k → m k = m' k) (k : Str)
    (v : Option α) : ∀ k', ¬ P k' → upd m k v k' = upd m' k v k' := by
  intro k' hk'
  unfold upd
  split
  · rfl
  · exact h k' hk'

theorem upd_within {α : Type} {P : Str → Prop} {m : Str → Option α} {k : Str} (hk : ¬ P k)
    (v : Option α) : ∀ k', P k' → upd m k v k' = m k' := by
  intro k' hk'
  unfold upd
  rw [if_neg]
  rintro rfl
  exact hk hk'

theorem sess_out {s s' : St} (ha : AgreeOutside H s s') (hs : Separate E H s) {m m' : Option (Nat × Nat)}
    (hm : m = m') (hr : ∀ r x, m = some (r, x) → ¬ H.ref r) :
    Par E H (SessOut E H) s (found (deref s (live s.clock m)), s) (found (deref s' (live s'.clock m')), s') := by
  subst hm
  have hd : deref s (live s.clock m) = deref s' (live s'.clock m) := by
    rw [ha.clock]
    cases m with
    | none => rfl
    | some y =>
      obtain ⟨r, x⟩ := y
      simp only [live]
      split
      · simp only [deref]; rw [ha.heap r (hr r x rfl)]
      · rfl
  refine ⟨by simp only; rw [hd], ?_, ha, hs, within_refl _⟩
  simp only
  cases m with
  | none => trivial
  | some y =>
    obtain ⟨r, x⟩ := y
    simp only [live]
    split
    · simp only [deref]
      cases hh : s.heap[r]? with
      | none => trivial
      | some d => exact ⟨hr r x rfl, hs.heap r d (hr r x rfl) hh⟩
    · trivial

theorem par_exec {s s' : St} (ha : AgreeOutside H s s') (hs : Separate E H s) {ch : Choice} (hf : Fresh E H ch.str)
    {c : Cmd} (hc : Outside E H c) : Par E H (AnsOut E H c) s (exec E c ch s) (exec E c ch s') := by
  cases c with
  | now => exact ⟨ha.clock, trivial, ha, hs, within_refl _⟩
  | jti => exact ⟨rfl, hf, ha, hs, within_refl _⟩
  | clientsGet id =>
    exact par_faulty _ ha hs trivial ⟨by simp only [ha.clients], trivial, ha, hs, within_refl _⟩
  | resourcesGet uri =>
    exact par_faulty _ ha hs trivial ⟨by simp only [ha.resources], trivial, ha, hs, within_refl _⟩
  | arGet i u =>
    exact par_faulty _ ha hs trivial ⟨by simp only [ha.clock, ha.requests _ hc], trivial, ha, hs, within_refl _⟩
  | arDel i u =>
    refine par_faulty _ ha hs trivial ⟨rfl, trivial, ?_, ?_, ?_⟩
    · exact { ha with requests := upd_agree ha.requests _ _ }
    · exact { hs with }
    · exact { within_refl (H := H) s with requests := upd_within hc _ }
  | arReg i u r =>
    refine par_faulty _ ha hs trivial ⟨rfl, trivial, ?_, ?_, ?_⟩
    · exact { ha with requests := by simp only [ha.clock]; exact upd_agree ha.requests _ _ }
    · exact { hs with }
    · exact { within_refl (H := H) s with requests := upd_within hc _ }
  | csGet i u =>
    exact par_faulty _ ha hs trivial ⟨by simp only [ha.clock, ha.codes _ hc], trivial, ha, hs, within_refl _⟩
  | csDel i u =>
    refine par_faulty _ ha hs trivial ⟨rfl, trivial, ?_, ?_, ?_⟩
    · exact { ha with codes := upd_agree ha.codes _ _ }
    · exact { hs with }
    · exact { within_refl (H := H) s with codes := upd_within hc _ }
  | csReg i u r =>
    refine par_faulty _ ha hs trivial ⟨rfl, trivial, ?_, ?_, ?_⟩
    · exact { ha with codes := by simp only [ha.clock]; exact upd_agree ha.codes _ _ }
    · exact { hs with }
    · exact { within_refl (H := H) s with codes := upd_within hc _ }
  | dsGetUser i u =>
    exact par_faulty _ ha hs trivial (sess_out ha hs (ha.user _ hc) (fun r x h => hs.user _ r x hc h))
  | dsGetDev i u =>
    exact par_faulty _ ha hs trivial (sess_out ha hs (ha.device _ hc) (fun r x h => hs.device _ r x hc h))
  | dsReg i u d =>
    obtain ⟨h1, h2, h3⟩ := hc
    have hn : ¬ H.ref s.heap.length := fun h => absurd (hs.alloc _ h) (by omega)
    refine par_faulty _ ha hs trivial ⟨rfl, trivial, ?_, ?_, ?_⟩
    · exact { ha with
        user := by simp only [ha.clock, ha.size]; exact upd_agree ha.user _ _
        device := by simp only [ha.clock, ha.size]; exact upd_agree ha.device _ _
        size := by simp [ha.size]
        heap := by
          intro r hr
          simp only [List.getElem?_append, ha.size, ha.heap r hr] }
    · refine { hs with alloc := ?_, user := ?_, device := ?_, heap := ?_ }
      · intro r hr
        have := hs.alloc r hr
        simp only [List.length_append, List.length_singleton]
        omega
      · intro k r x hk h
        simp only [upd] at h
        split at h
        · cases h; exact hn
        · exact hs.user k r x hk h
      · intro k r x hk h
        simp only [upd] at h
        split at h
        · cases h; exact hn
        · exact hs.device k r x hk h
      · intro r d' hr h
        simp only at h
        rw [List.getElem?_append] at h
        split at h
        · exact hs.heap r d' hr h
        · have hd : d' = d := by
            rcases hi : r - s.heap.length with _ | n
            · rw [hi] at h; simpa using h.symm
            · rw [hi] at h; simp at h
          subst hd
          exact ⟨h2, h3⟩
    · refine { within_refl (H := H) s with user := upd_within h1 _, device := upd_within h2 _, heap := ?_ }
      intro r hr
      simp only
      rw [List.getElem?_append_left (hs.alloc r hr)]
  | dsAssign r d =>
    obtain ⟨h1, h2, h3⟩ := hc
    refine ⟨rfl, trivial, ?_, ?_, ?_⟩
    · exact { ha with
        size := by simp [exec, ha.size]
        heap := by
          intro r' hr'
          simp only [exec, List.getElem?_set, ha.size, ha.heap r' hr'] }
    · refine { hs with alloc := ?_, heap := ?_ }
      · intro r' hr'; simpa [exec] using hs.alloc r' hr'
      · intro r' d' hr' h
        simp only [exec, List.getElem?_set] at h
        split at h
        · split at h
          · cases h; exact ⟨h2, h3⟩
          · cases h
        · exact hs.heap r' d' hr' h
    · refine { within_refl (H := H) s with heap := ?_ }
      intro r' hr'
      simp only [exec, List.getElem?_set]
      rw [if_neg]
      rintro rfl
      exact h1 hr'
  | dsValidate i u r d =>
    obtain ⟨h1, h2, h3⟩ := hc
    refine par_faulty _ ha hs trivial ⟨rfl, trivial, ?_, ?_, ?_⟩
    · exact { ha with
        user := by simp only [ha.clock]; exact upd_agree ha.user _ _
        device := by simp only [ha.clock]; exact upd_agree ha.device _ _ }
    · refine { hs with user := ?_, device := ?_ }
      · intro k r x hk h
        simp only [upd] at h
        split at h
        · cases h; exact h3
        · exact hs.user k r x hk h
      · intro k r x hk h
        simp only [upd] at h
        split at h
        · cases h; exact h3
        · exact hs.device k r x hk h
    · exact { within_refl (H := H) s with user := upd_within h1 _, device := upd_within h2 _ }
  | dsDel i u =>
    refine par_faulty _ ha hs trivial ⟨rfl, trivial, ?_, ?_, ?_⟩
    · exact { ha with user := upd_agree ha.user _ _ }
    · refine { hs with user := ?_ }
      intro k r x hk h
      simp only [upd] at h
      split at h
      · cases h
      · exact hs.user k r x hk h
    · exact { within_refl (H := H) s with user := upd_within hc _ }
  | tkGetVal i v =>
    refine par_faulty _ ha hs trivial ⟨by simp only [ha.token _ hc], ?_, ha, hs, within_refl _⟩
    simp only
    cases ht : s.tokVal (tokenKey E i v) with
    | none => trivial
    | some t => exact hs.token _ t hc ht
  | tkCreate i t =>
    obtain ⟨h1, h2, h3⟩ := hc
    refine par_faulty _ ha hs trivial ⟨rfl, trivial, ?_, ?_, ?_⟩
    · exact { ha with token := upd_agree ha.token _ _, id := upd_agree ha.id _ _ }
    · refine { hs with token := ?_, id := ?_ }
      · intro k t' hk h
        simp only [create, upd] at h
        split at h
        · cases h; exact ⟨h2, h3⟩
        · exact hs.token k t' hk h
      · intro k t' hk h
        simp only [create, upd] at h
        split at h
        · cases h; exact ⟨h2, h1, h3⟩
        · exact hs.id k t' hk h
    · exact { within_refl (H := H) s with token := upd_within h1 _, id := upd_within h2 _ }
  | tkRevoke i id =>
    refine par_faulty _ ha hs trivial ?_
    unfold revoke
    rw [← ha.id id hc]
    cases ht : s.tokId id with
    | none => exact ⟨rfl, trivial, ha, hs, within_refl _⟩
    | some t =>
      obtain ⟨h2, h1, h3⟩ := hs.id id t hc ht
      refine ⟨rfl, trivial, ?_, ?_, ?_⟩
      · exact { ha with token := upd_agree ha.token _ _, id := upd_agree ha.id _ _ }
      · refine { hs with token := ?_, id := ?_ }
        · intro k t' hk h
          simp only [upd] at h
          split at h
          · cases h; exact ⟨h2, h3⟩
          · exact hs.token k t' hk h
        · intro k t' hk h
          simp only [upd] at h
          split at h
          · cases h; exact ⟨h2, h1, h3⟩
          · exact hs.id k t' hk h
      · exact { within_refl (H := H) s with token := upd_within h1 _, id := upd_within h2 _ }
  | genCode _ => exact par_gen ha hs hf
  | genUri _ => exact par_gen ha hs hf
  | genDev _ => exact par_gen ha hs hf
  | genUser _ => exact par_gen ha hs hf
  | genAT _ => exact par_gen ha hs hf
  | genRT _ => exact par_gen ha hs hf
  | dpopExists id =>
    exact par_faulty _ ha hs trivial ⟨by simp only [ha.clock, ha.proofs], trivial, ha, hs, within_refl _⟩
  | dpopRegister id =>
    refine par_faulty _ ha hs trivial ⟨rfl, trivial, ?_, ?_, ?_⟩
    · exact { ha with proofs := by simp only [ha.clock, ha.proofs] }
    · exact { hs with }
    · exact { within_refl (H := H) s with }

/-! ### The services -/

/-- A program whose calls all concern neither sessions nor tokens. -/
def isNeutral : Cmd → Bool
  | .now | .clientsGet _ | .resourcesGet _ | .dpopExists _ | .dpopRegister _ => true
  | _ => false

theorem stays_neutral {α : Type} {p : Prog α} (h : Only isNeutral p) : Stays E H p := by
  induction p with
  | ret a => trivial
  | panic => trivial
  | op c k ih =>
    refine ⟨?_, fun r _ => ih r (h.2 r)⟩
    have := h.1
    cases c <;> first | trivial | exact absurd this (by simp [isNeutral])

theorem stays_generateAT (c : Client) (md : TokenMeta) (cnf : Option Cnf) (hm : H.served md.issuer) :
    Stays E H (TokenSvc.generateAccessToken c md cnf) := by
  unfold TokenSvc.generateAccessToken
  simp only [Prog.call, bind_op, bind_ret, pure_eq]
  refine ⟨trivial, fun now _ => ⟨trivial, fun j (hj : Fresh E H j) => ⟨trivial, ?_⟩⟩⟩
  rintro (_ | v) hv
  · trivial
  · simp only; split
    · trivial
    · exact ⟨⟨Fresh.token hv _ hm, hj.id, fun md' e => by cases e; exact hm⟩, by rintro (_ | u) _ <;> trivial⟩

theorem stays_generateRT (c : Client) (md : TokenMeta) (cnf : Option Cnf) (hm : H.served md.issuer) :
    Stays E H (TokenSvc.generateRefreshToken c md cnf) := by
  unfold TokenSvc.generateRefreshToken
  simp only [Prog.call, bind_op, bind_ret, pure_eq]
  refine ⟨trivial, fun now _ => ⟨trivial, fun j (hj : Fresh E H j) => ⟨trivial, ?_⟩⟩⟩
  rintro (_ | v) hv
  · trivial
  · simp only; split
    · trivial
    · exact ⟨⟨Fresh.token hv _ hm, hj.id, fun md' e => by cases e; exact hm⟩, by rintro (_ | u) _ <;> trivial⟩

theorem stays_code (c : Option Client) (q : TokenReq) (g : GrantCode) (hm : H.served q.issuer)
    (hq : ¬ H.code (codeKey E q.issuer g.code)) :
    Stays E H (TokenSvc.authorizationCode E c q g) := by
  unfold TokenSvc.authorizationCode
  cases c with
  | none => trivial
  | some c =>
    simp only
    repeat' (split; · trivial)
    simp only [Prog.call, bind_op, bind_ret, pure_eq]
    refine ⟨hq, ?_⟩
    rintro ((_ | _) | (_ | s)) _
    · trivial
    · trivial
    · trivial
    · simp only
      cases s.request with
      | none => trivial
      | some ar =>
        refine ⟨hq, ?_⟩
        rintro (_ | u) _
        · trivial
        · simp only
          split
          · trivial
          · unfold TokenSvc.codeTokens
            simp only
            split
            · refine stays_bind (stays_generateAT _ _ _ hm) ?_
              rintro (_ | t)
              · trivial
              · simp only
                split
                · refine stays_bind (stays_generateRT _ _ _ hm) ?_
                  rintro (_ | t) <;> trivial
                · trivial
            · trivial

theorem stays_cc (c : Option Client) (q : TokenReq) (hm : H.served q.issuer) :
    Stays E H (TokenSvc.clientCredentials E c q) := by
  unfold TokenSvc.clientCredentials
  cases c with
  | none => trivial
  | some c =>
    simp only
    repeat' (split; · trivial)
    refine stays_bind (stays_generateAT _ _ _ hm) ?_
    rintro (_ | t) <;> trivial

theorem stays_device (c : Option Client) (q : TokenReq) (dc : Str) (hm : H.served q.issuer)
    (hq : ¬ H.device (devKey E q.issuer dc)) :
    Stays E H (TokenSvc.deviceCode E c q dc) := by
  unfold TokenSvc.deviceCode
  cases c with
  | none => trivial
  | some c =>
    simp only
    repeat' (split; · trivial)
    simp only [Prog.call, bind_op, bind_ret, pure_eq]
    refine ⟨hq, ?_⟩
    rintro ((_ | _) | (_ | ⟨ref, s⟩)) _
    · trivial
    · trivial
    · trivial
    · simp only
      cases s.request with
      | none => trivial
      | some ar =>
        simp only
        split; · trivial
        split; · trivial
        refine ⟨trivial, fun now _ => ?_⟩
        dsimp only
        split; · trivial
        split; · trivial
        split; · trivial
        cases s.subject with
        | none => trivial
        | some sub =>
          unfold TokenSvc.deviceTokens
          simp only
          refine stays_bind (stays_generateAT _ _ _ hm) ?_
          rintro (_ | t)
          · trivial
          · simp only
            cases s.scope with
            | none => trivial
            | some sc =>
              simp only
              split
              · refine stays_bind (stays_generateRT _ _ _ hm) ?_
                rintro (_ | t) <;> trivial
              · trivial

theorem stays_refresh (c : Option Client) (q : TokenReq) (v : Str) (hq : ¬ H.token (tokenKey E q.issuer v)) :
    Stays E H (TokenSvc.refreshToken E c q v) := by
  unfold TokenSvc.refreshToken
  cases c with
  | none => trivial
  | some c =>
    simp only
    repeat' (split; · trivial)
    simp only [Prog.call, bind_op, bind_ret, pure_eq]
    refine ⟨hq, ?_⟩
    rintro ((_ | _) | (_ | rt)) hr
    · trivial
    · trivial
    · trivial
    · simp only
      split; · trivial
      split; · trivial
      cases hmd : rt.metadata with
      | none => trivial
      | some md =>
        have hm := hr.2 md hmd
        refine ⟨trivial, fun now _ => ?_⟩
        dsimp only
        split; · trivial
        split; · trivial
        unfold TokenSvc.refreshTokens
        refine stays_bind (stays_generateAT _ _ _ hm) ?_
        rintro (_ | t)
        · trivial
        · simp only
          split
          · refine stays_bind (stays_generateRT _ _ _ hm) ?_
            rintro (_ | t)
            · trivial
            · exact ⟨hr.1, by rintro (_ | u) _ <;> trivial⟩
          · trivial

theorem stays_finish (q : TokenReq) (md : TokenMeta) (sc : Str) (spec : Token) (hm : H.served q.issuer)
    (hs : ¬ H.id spec.tokenId) (hs' : MetaServed H spec) :
    Stays E H (TokenSvc.exchangeFinish q md sc spec) := by
  unfold TokenSvc.exchangeFinish
  simp only [Prog.call, bind_op, bind_ret, pure_eq]
  refine ⟨trivial, ?_⟩
  rintro (_ | v) hv
  · trivial
  · simp only; split
    · trivial
    · exact ⟨⟨Fresh.token hv _ hm, hs, hs'⟩, by rintro (_ | u) _ <;> trivial⟩

theorem stays_exchange (c : Option Client) (q : TokenReq) (g : GrantExchange) (hm : H.served q.issuer)
    (hq : ¬ H.token (tokenKey E q.issuer g.subjectToken)) : Stays E H (TokenSvc.tokenExchange E c q g) := by
  unfold TokenSvc.tokenExchange
  cases c with
  | none => trivial
  | some c =>
    simp only
    repeat' (split; · trivial)
    simp only [Prog.call, bind_op, bind_ret, pure_eq]
    refine ⟨hq, ?_⟩
    rintro ((_ | _) | (_ | st)) hr
    · trivial
    · trivial
    · trivial
    · simp only
      split; · trivial
      split; · trivial
      cases hmd : st.metadata with
      | none => trivial
      | some md =>
        have hm' := hr.2 md hmd
        refine ⟨trivial, fun now _ => ?_⟩
        dsimp only
        split; · trivial
        unfold TokenSvc.exchangeBuild
        simp only [Prog.call, bind_op, bind_ret, pure_eq]
        refine ⟨trivial, fun now _ => ⟨trivial, fun j (hj : Fresh E H j) => ?_⟩⟩
        cases q.audience with
        | none => exact stays_finish _ _ _ _ hm hj.id (fun md' e => by cases e; exact hm')
        | some u =>
          refine ⟨trivial, ?_⟩
          rintro ((_ | _) | (_ | res)) _
          · trivial
          · trivial
          · trivial
          · exact stays_finish _ _ _ _ hm hj.id (fun md' e => by cases e; exact hm')

theorem stays_token (req : Option TokenReq) (hq : Quiet E H (.token req)) : Stays E H (TokenSvc.token E req) := by
  unfold TokenSvc.token
  cases req with
  | none => trivial
  | some q =>
    cases hv : TokenSvc.validateRequest (some q) with
    | some e => trivial
    | none =>
      simp only
      cases hc : q.client with
      | none => trivial
      | some c =>
        simp only [Prog.call, bind_op, bind_ret, pure_eq]
        refine ⟨trivial, ?_⟩
        rintro ((_ | _) | client) _
        · trivial
        · trivial
        · simp only
          unfold TokenSvc.dispatch
          split
          · split
            · exact stays_cc _ _ (hq q rfl).1
            · trivial
          split
          · split
            · rename_i hg; exact stays_code _ _ _ (hq q rfl).1 ((hq q rfl).2 _ hg)
            · trivial
          split
          · split
            · rename_i hg; exact stays_device _ _ _ (hq q rfl).1 ((hq q rfl).2 _ hg)
            · trivial
          split
          · split
            · rename_i hg; exact stays_refresh _ _ _ ((hq q rfl).2 _ hg)
            · trivial
          split
          · split
            · rename_i hg; exact stays_exchange _ _ _ (hq q rfl).1 ((hq q rfl).2 _ hg)
            · trivial
          · trivial

theorem stays_validate (r : Option AuthzRequest) : Stays E H (Authorization.validate E r) :=
  stays_neutral (only_validate (fun _ => rfl) _ _)

theorem stays_authorizeWith (i s : Str) (r : Option AuthzRequest) (hm : H.served i) :
    Stays E H (Authorization.authorizeWith E i s r) := by
  unfold Authorization.authorizeWith
  refine stays_bind (stays_validate _) ?_
  rintro (e | ar)
  · trivial
  · simp only [Prog.call, bind_op, bind_ret, pure_eq]
    refine ⟨trivial, ?_⟩
    rintro (_ | code) hc
    · trivial
    · exact ⟨Fresh.code hc _ hm, by rintro (_ | n) _ <;> trivial⟩

theorem stays_authorize (req : Option AuthorizeReq) (hq : Quiet E H (.authorize req)) :
    Stays E H (Authorization.authorize E req) := by
  unfold Authorization.authorize
  cases req with
  | none => trivial
  | some q =>
    simp only
    cases hr : q.request with
    | none => trivial
    | some r =>
      simp only
      split; · trivial
      split; · trivial
      cases hu : r.requestUri with
      | none => exact stays_authorizeWith _ _ _ (hq q rfl).1
      | some uri =>
        have hk := (hq q rfl).2 r uri hr hu
        simp only
        split; · trivial
        simp only [Prog.call, bind_op, bind_ret, pure_eq]
        refine ⟨hk, ?_⟩
        rintro ((_ | _) | ar) _
        · trivial
        · trivial
        · refine ⟨hk, ?_⟩
          rintro ((_ | _) | u) _
          · trivial
          · trivial
          · exact stays_authorizeWith _ _ _ (hq q rfl).1

theorem stays_register (req : Option RegistrationReq) (hq : Quiet E H (.register req)) :
    Stays E H (Authorization.register E req) := by
  unfold Authorization.register
  cases req with
  | none => trivial
  | some q =>
    simp only
    split; · trivial
    cases q.client with
    | none => trivial
    | some c =>
      cases q.request with
      | none => trivial
      | some r =>
        simp only
        split; · trivial
        refine stays_bind (stays_validate _) ?_
        rintro (e | ar)
        · trivial
        · simp only [Prog.call, bind_op, bind_ret, pure_eq]
          split; · trivial
          refine ⟨trivial, ?_⟩
          rintro (_ | uri) hu
          · trivial
          · exact ⟨Fresh.request hu _ (hq q rfl), by rintro (_ | n) _ <;> trivial⟩

theorem stays_deviceAuthorize (req : Option DeviceAuthzReq) (hq : Quiet E H (.deviceAuthorize req)) :
    Stays E H (Device.authorize req) := by
  unfold Device.authorize
  cases req with
  | none => trivial
  | some q =>
    simp only
    split; · trivial
    split; · trivial
    simp only [Prog.call, bind_op, bind_ret, pure_eq]
    refine ⟨trivial, ?_⟩
    rintro (_ | (_ | c)) _
    · trivial
    · trivial
    · simp only
      split; · trivial
      refine ⟨trivial, ?_⟩
      rintro (_ | dc) hd
      · trivial
      · refine ⟨trivial, ?_⟩
        rintro (_ | uc) hu
        · trivial
        · exact ⟨⟨Fresh.user hu _ (hq q rfl), Fresh.device hd _ (hq q rfl), hq q rfl⟩, by rintro (_ | n) _ <;> trivial⟩

theorem stays_deviceValidate (req : Option DeviceValidationReq) (hq : Quiet E H (.deviceValidate req)) :
    Stays E H (Device.validate req) := by
  unfold Device.validate
  cases req with
  | none => trivial
  | some q =>
    obtain ⟨hm, hk⟩ := hq q rfl
    simp only
    split; · trivial
    split; · trivial
    split; · trivial
    simp only [Prog.call, bind_op, bind_ret, pure_eq]
    refine ⟨hk _ hm, ?_⟩
    rintro ((_ | _) | (_ | ⟨ref, s⟩)) hs
    · trivial
    · trivial
    · trivial
    · obtain ⟨h1, h2, h3⟩ := hs
      simp only
      split; · trivial
      split; · trivial
      refine ⟨trivial, fun now _ => ?_⟩
      dsimp only
      split; · trivial
      split; · trivial
      refine ⟨⟨h1, h2, h3⟩, fun _ _ => ⟨⟨hk _ h3, h2, h1⟩, ?_⟩⟩
      rintro (_ | u) _
      · trivial
      · exact ⟨hk _ hm, by rintro (_ | u) _ <;> trivial⟩

theorem stays_introspect (req : Option TokenRefReq) (hq : Quiet E H (.introspect req)) :
    Stays E H (TokenSvc.introspect E req) := by
  unfold TokenSvc.introspect
  cases req with
  | none => trivial
  | some q =>
    simp only
    split; · trivial
    split; · trivial
    cases q.client with
    | none => trivial
    | some c =>
      simp only
      split; · trivial
      simp only [Prog.call, bind_op, bind_ret, pure_eq]
      refine ⟨trivial, ?_⟩
      rintro ((_ | _) | c) _
      · trivial
      · trivial
      · exact ⟨hq q rfl, by rintro ((_ | _) | t) _ <;> trivial⟩

theorem stays_revoke (req : Option TokenRefReq) (hq : Quiet E H (.revoke req)) :
    Stays E H (TokenSvc.revoke E req) := by
  unfold TokenSvc.revoke
  cases req with
  | none => trivial
  | some q =>
    simp only
    split; · trivial
    split; · trivial
    cases q.client with
    | none => trivial
    | some c =>
      simp only
      split; · trivial
      simp only [Prog.call, bind_op, bind_ret, pure_eq]
      refine ⟨trivial, ?_⟩
      rintro ((_ | _) | c) _
      · trivial
      · trivial
      · refine ⟨hq q rfl, ?_⟩
        rintro (_ | (_ | t)) ht
        · trivial
        · trivial
        · exact ⟨ht.1, by rintro (_ | u) _ <;> trivial⟩

theorem stays_dpop (r : DPoP.VerifyReq) : Stays E H (DPoP.verify E r) := by
  refine stays_neutral ?_
  have h := only_dpop E r
  revert h
  generalize DPoP.verify E r = p
  intro h
  induction p with
  | ret a => trivial
  | panic => trivial
  | op c k ih =>
    refine ⟨?_, fun r => ih r (h.2 r)⟩
    have := h.1
    cases c <;> first | rfl | exact absurd this (by simp [dpopCmds])

theorem stays_handle (r : Req) (hq : Quiet E H r) : Stays E H (handle E r) := by
  cases r <;> refine stays_bind ?_ (fun _ => trivial)
  · exact stays_authorize _ hq
  · exact stays_register _ hq
  · exact stays_deviceAuthorize _ hq
  · exact stays_deviceValidate _ hq
  · exact stays_token _ hq
  · exact stays_introspect _ hq
  · exact stays_revoke _ hq
  · exact stays_dpop _

end Verif
