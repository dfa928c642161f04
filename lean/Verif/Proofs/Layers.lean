import Verif.Model.HttpSystem
import Verif.Proofs.Http
import Verif.Proofs.Must

/-!
The programs of the HTTP endpoints as layers: their own reads, and calls of services.
-/
set_option linter.unusedSimpArgs false
namespace Verif.Http
open Verif.Prog Verif.Spec

/-- A program that reads and calls services. -/
inductive Lay : Type where
  | ret (a : Resp)
  | panic
  | read (c : Cmd) (k : c.Res → Lay)
  | svc (q : Verif.Req) (k : Verif.Resp → Lay)

namespace Lay

/-- The program in which the services are inlined. -/
def flat (E : Env) : Lay → Prog Resp
  | .ret a => .ret a
  | .panic => .panic
  | .read c k => .op c fun r => flat E (k r)
  | .svc q k => handle E q >>= fun a => flat E (k a)

/-- All own calls are reads. -/
def Good : Lay → Prop
  | .ret _ => True
  | .panic => True
  | .read c k => Props.isReadOnly c = true ∧ ∀ r, Good (k r)
  | .svc _ k => ∀ a, Good (k a)

/-- A program before a layered one. -/
def ofProg {α : Type} : Prog α → (α → Lay) → Lay
  | .ret a, f => f a
  | .panic, _ => .panic
  | .op c k, f => .read c fun r => ofProg (k r) f

theorem flat_ofProg {α : Type} (E : Env) (p : Prog α) (f : α → Lay) :
    flat E (ofProg p f) = p >>= fun a => flat E (f a) := by
  induction p with
  | ret a => rfl
  | panic => rfl
  | op c k ih => simp only [ofProg, flat, bind_op]; congr; funext r; exact ih r

theorem good_ofProg {α : Type} {p : Prog α} {f : α → Lay} (hp : Only Props.isReadOnly p) (hf : ∀ a, Good (f a)) :
    Good (ofProg p f) := by
  induction p with
  | ret a => exact hf a
  | panic => trivial
  | op c k ih => exact ⟨hp.1, fun r => ih r (hp.2 r)⟩

end Lay

/-- What happened on the way: a read, or a service `q`, served as request `j` of the
services and answered `a`. -/
inductive Stop where
  | read (ev : Ev)
  | svc (j : Nat) (q : Verif.Req) (a : Verif.Resp)

/-- After the stops `w`, what remains of `h` is `h'`. -/
inductive Trail : Lay → List Stop → Lay → Prop
  | nil (h : Lay) : Trail h [] h
  | read (c : Cmd) (k : c.Res → Lay) (r : c.Res) (w : List Stop) (h : Lay) :
      Trail (k r) w h → Trail (.read c k) (.read ⟨c, r⟩ :: w) h
  | svc (q : Verif.Req) (k : Verif.Resp → Lay) (j : Nat) (a : Verif.Resp) (w : List Stop) (h : Lay) :
      Trail (k a) w h → Trail (.svc q k) (.svc j q a :: w) h

namespace Trail

theorem trans {h h' h'' : Lay} {w w' : List Stop} (h1 : Trail h w h') (h2 : Trail h' w' h'') : Trail h (w ++ w') h'' := by
  induction h1 with
  | nil h => exact h2
  | read c k r w h _ ih => exact .read c k r _ _ (ih h2)
  | svc q k j a w h _ ih => exact .svc q k j a _ _ (ih h2)

theorem good {h h' : Lay} {w : List Stop} (ht : Trail h w h') (hg : h.Good) : h'.Good := by
  induction ht with
  | nil h => exact hg
  | read c k r w h _ ih => exact ih (hg.2 r)
  | svc q k j a w h _ ih => exact ih (hg a)

/-- A service on the way was reached. -/
theorem reached {h h' : Lay} {w1 w2 : List Stop} {j : Nat} {q : Verif.Req} {a : Verif.Resp}
    (ht : Trail h (w1 ++ .svc j q a :: w2) h') : ∃ k, Trail h w1 (.svc q k) ∧ Trail (k a) w2 h' := by
  induction w1 generalizing h with
  | nil => cases ht with
    | svc q k j a w h ht => exact ⟨k, .nil _, ht⟩
  | cons x w1 ih =>
    cases ht with
    | read c k r w h ht =>
      obtain ⟨k', h1, h2⟩ := ih ht
      exact ⟨k', .read _ _ _ _ _ h1, h2⟩
    | svc q k j a w h ht =>
      obtain ⟨k', h1, h2⟩ := ih ht
      exact ⟨k', .svc _ _ _ _ _ _ h1, h2⟩

/-- A trail through a program that ends at an answer or a service passed the program. -/
theorem ofProg {α : Type} {p : Prog α} {f : α → Lay} {w : List Stop} {h : Lay} (ht : Trail (Lay.ofProg p f) w h)
    (hh : (∃ a, h = .ret a) ∨ ∃ q k, h = .svc q k) :
    ∃ tr w' a, w = tr.map Stop.read ++ w' ∧ Exec p tr (.done a) ∧ Trail (f a) w' h := by
  induction p generalizing w with
  | ret a => exact ⟨[], w, a, rfl, .ret a, ht⟩
  | panic =>
    cases ht
    rcases hh with ⟨_, e⟩ | ⟨_, _, e⟩ <;> cases e
  | op c k ih =>
    cases ht with
    | nil => rcases hh with ⟨_, e⟩ | ⟨_, _, e⟩ <;> cases e
    | read _ _ r w _ ht =>
      obtain ⟨tr, w', a, rfl, h1, h2⟩ := ih r ht
      exact ⟨⟨c, r⟩ :: tr, w', a, rfl, .step _ _ _ _ _ h1, h2⟩

theorem ofRet {a : Resp} {w : List Stop} {h : Lay} (ht : Trail (.ret a) w h) : w = [] ∧ h = .ret a := by
  cases ht; exact ⟨rfl, rfl⟩

theorem ofPanic {w : List Stop} {h : Lay} (ht : Trail .panic w h) : w = [] ∧ h = .panic := by
  cases ht; exact ⟨rfl, rfl⟩

end Trail

/-! ### The endpoints -/

/-- `afterAuth` up to its handler. -/
def afterP (a : ClientAuth.AuthResult) : Prog (Resp ⊕ Option Client) :=
  if a.goErr then .ret (.inl ⟨401, .error .invalidClient⟩)
  else match a.resp with
    | none => .panic
    | some resp => .ret (.inr resp.client)

/-- `clientAuth` up to its handler. -/
def authP (S : Server) (r : Req) : Prog (Resp ⊕ Option Client) :=
  if r.get g!"client_id" ≠ [] then
    .op (.clientsGet (r.get g!"client_id")) fun
      | .error _ => .ret (.inl ⟨401, .error .invalidClient⟩)
      | .ok none => .panic
      | .ok (some client) =>
        if client.clientType = .pub then .ret (.inr (some client)) else .ret (.inl ⟨401, .error .invalidClient⟩)
  else
    let ty := r.postValue g!"client_assertion_type"
    let req : ClientAuth.AuthReq := ⟨some ty, some (r.postValue g!"client_assertion")⟩
    if ty = ClientAuth.typeBearer then ClientAuth.privateKeyJwt S.P (some req) >>= afterP
    else if ty = ClientAuth.typeAttestation then ClientAuth.clientAttestation S.P (some req) >>= afterP
    else .ret (.inl ⟨401, .error .invalidRequest⟩)

theorem clientAuth_eq (S : Server) (r : Req) (h : Option Client → Prog Resp) :
    clientAuth S r h = authP S r >>= fun x => Sum.elim Prog.ret h x := by
  have ha : ∀ p : Prog ClientAuth.AuthResult, p >>= afterAuth h =
      (p >>= afterP) >>= fun x => Sum.elim Prog.ret h x := by
    intro p
    rw [bind_assoc']
    congr
    funext a
    unfold afterAuth afterP
    cases a.goErr
    · cases a.resp <;> rfl
    · rfl
  unfold clientAuth authP
  split
  · change Prog.op _ _ = Prog.op _ _
    congr
    funext x
    rcases x with _ | _ | client
    · rfl
    · rfl
    · by_cases hp : client.clientType = .pub <;> simp [Prog.bind, hp, err]
  · dsimp only
    split
    · exact ha _
    · split
      · exact ha _
      · rfl

theorem only_authP (S : Server) (r : Req) : Only Props.isReadOnly (authP S r) := by
  have ha : ∀ a : ClientAuth.AuthResult, Only Props.isReadOnly (afterP a) := by
    intro a
    unfold afterP
    split
    · trivial
    · split <;> trivial
  unfold authP
  split
  · refine ⟨rfl, ?_⟩
    rintro (_ | _ | client)
    · trivial
    · trivial
    · dsimp only
      split <;> trivial
  · dsimp only
    split
    · exact only_bind (Props.C59_replay_violated S.P _).1 ha
    · split
      · exact only_bind (Props.C59_replay_violated S.P _).2.1 ha
      · trivial

theorem exec_seq {α β : Type} {p : Prog α} {f : α → Prog β} {tr tr' : List Ev} {a : α} {o : Outcome β}
    (h : Exec p tr (.done a)) (h' : Exec (f a) tr' o) : Exec (p >>= f) (tr ++ tr') o := by
  induction p generalizing tr with
  | ret b => cases h; exact h'
  | panic => cases h
  | op c k ih =>
    cases h with
    | step _ _ r tr _ h => exact .step _ _ _ _ _ (ih r h)

/-- Who got past client authentication. -/
theorem authP_from {S : Server} {r : Req} {tr : List Ev} {o : Option Client} (he : Exec (authP S r) tr (.done (.inr o)))
    (hnil : ∀ id, ⟨.clientsGet id, .ok none⟩ ∉ tr) : ∃ c, o = some c ∧ FromClient S.P r tr c := by
  classical
  have h1 : Exec (clientAuth S r fun x => if x = o then .ret ⟨0, .empty⟩ else .panic) tr (.done ⟨0, .empty⟩) := by
    rw [clientAuth_eq]
    have := exec_seq he (f := fun x => Sum.elim Prog.ret (fun x => if x = o then .ret ⟨0, .empty⟩ else .panic) x)
      (tr' := []) (o := .done (⟨0, .empty⟩ : Resp)) (by simp; exact .ret _)
    simpa using this
  rcases clientAuth_exec h1 hnil with ⟨_, h2, _⟩ | ⟨c, t1, t2, rfl, _, hf, h2⟩
  · obtain ⟨c, e⟩ := h2 _ rfl
    cases e
  · split at h2
    · rename_i e
      exact ⟨c, e.symm, hf.mono fun ev hev => List.mem_append_left _ hev⟩
    · cases h2

theorem authP_refused {S : Server} {r : Req} {tr : List Ev} {a : Resp} (he : Exec (authP S r) tr (.done (.inl a))) :
    ∃ c, a = ⟨401, .error c⟩ := by
  have aux : ∀ {p : Prog ClientAuth.AuthResult} {tr}, Exec (p >>= afterP) tr (.done (.inl a)) →
      ∃ c, a = ⟨401, .error c⟩ := by
    intro p tr h
    obtain ⟨_, _, x, _, _, h⟩ := exec_bind_done h
    unfold afterP at h
    split at h
    · cases h; exact ⟨_, rfl⟩
    · split at h <;> cases h
  unfold authP at he
  split at he
  · cases he with
    | step _ _ x _ _ he =>
      rcases x with _ | _ | client
      · cases he; exact ⟨_, rfl⟩
      · cases he
      · dsimp only at he
        split at he <;> cases he
        exact ⟨_, rfl⟩
  · dsimp only at he
    split at he
    · exact aux he
    · split at he
      · exact aux he
      · cases he; exact ⟨_, rfl⟩

/-- An error answer. -/
def errL (n : Nat) (c : ErrCode) : Lay := .ret ⟨n, .error c⟩

/-- `withError`. -/
def withErrorL (n : Nat) (e : Option OErr) : Lay := .ofProg (withError n e) .ret

/-- /token: the service and the answer. -/
def tokenCallL (S : Server) (r : Req) (c : Client) (cnf : Option Cnf) (d : Bool) : Lay :=
  .svc (.token (some (tokenMsg S r c cnf))) fun
    | .token res => .ofProg (tokenAnswer d res) .ret
    | _ => .panic

/-- The proof of possession of a request. -/
def proofOf (r : Req) : DPoP.VerifyReq := { htm := r.method, htu := r.url, proof := r.dpop }

def tokenL (S : Server) (r : Req) (c : Option Client) : Lay :=
  if r.method ≠ g!"POST" then errL 405 .invalidRequest
  else match c with
    | none => errL 401 .invalidClient
    | some c =>
      if r.dpop = [] ∧ c.dpopBoundAccessTokens then errL 400 .invalidRequest
      else if r.dpop = [] then tokenCallL S r c none false
      else .svc (.dpop (proofOf r)) fun
        | .dpop none => errL 400 .invalidDPoPProof
        | .dpop (some jkt) => tokenCallL S r c (some ⟨jkt⟩) true
        | _ => .panic

def introspectL (S : Server) (r : Req) (c : Option Client) : Lay :=
  match c with
  | none => errL 401 .invalidClient
  | some c =>
    .svc (.introspect (some { issuer := S.issuer, client := some c, token := r.formValue g!"token" })) fun
      | .introspect res =>
        if res.goErr then withErrorL 400 res.error
        else match res.token with
          | none => .panic
          | some t =>
            if t.status = .active then
              .ofProg (TokenGen.isUsable (some t)) fun u =>
                if u then
                  match t.metadata with
                  | none => .panic
                  | some md => .ret ⟨200, .introspection (some (activeBody t md))⟩
                else .ret ⟨200, .introspection none⟩
            else .ret ⟨200, .introspection none⟩
      | _ => .panic

def revokeL (S : Server) (r : Req) (c : Option Client) : Lay :=
  match c with
  | none => errL 401 .invalidClient
  | some c =>
    .svc (.revoke (some { issuer := S.issuer, client := some c, token := r.formValue g!"token" })) fun
      | .revoke res => if res.goErr then withErrorL 400 res.error else .ret ⟨200, .empty⟩
      | _ => .panic

/-- The message of a device authorization request. -/
def deviceMsg (S : Server) (r : Req) : DeviceAuthzReq :=
  { issuer := S.issuer, clientId := r.formValue g!"client_id", scope := optional (r.formValue g!"scope"),
    audience := optional (r.formValue g!"audience") }

def deviceAuthzL (S : Server) (r : Req) : Lay :=
  if r.method ≠ g!"POST" then errL 405 .invalidRequest
  else .svc (.deviceAuthorize (some (deviceMsg S r))) fun
    | .deviceAuthorize res =>
      if res.goErr then withErrorL 400 res.error
      else .ret ⟨200, .device res.deviceCode res.userCode (S.issuer ++ g!"/device") res.expiresIn res.interval⟩
    | _ => .panic

def deviceL (S : Server) (r : Req) (sub : Str) : Lay :=
  if sub = [] then errL 401 .invalidRequest
  else if r.method = g!"GET" then .ret ⟨200, .form⟩
  else if r.method = g!"POST" then
    .svc (.deviceValidate (some { issuer := S.issuer, subject := sub, userCode := r.postValue g!"user_code" })) fun
      | .deviceValidate res => if res.goErr then withErrorL 400 res.error else .ret ⟨200, .empty⟩
      | _ => .panic
  else errL 405 .invalidRequest

def parL (S : Server) (r : Req) (c : Option Client) : Lay :=
  if r.method ≠ g!"POST" then .ret ⟨405, .empty⟩
  else match c with
    | none => errL 200 .invalidClient
    | some c =>
      .svc (.dpop (proofOf r)) fun
        | .dpop none => errL 400 .invalidDPoPProof
        | .dpop (some jkt) =>
          match decodeRequest S c (r.get g!"request") with
          | none => errL 400 .invalidRequest
          | some ar =>
            .svc (.register (some { issuer := S.issuer, client := some c, request := some ar, confirmation := some ⟨jkt⟩ })) fun
              | .register res =>
                if res.goErr then withErrorL 400 res.error
                else .ret ⟨201, .par res.issuer res.requestUri res.expiresIn⟩
              | _ => .panic
        | _ => .panic

def authorizeL (S : Server) (r : Req) (sub : Str) : Lay :=
  if r.method ≠ g!"GET" then errL 405 .invalidRequest
  else if sub = [] then errL 401 .invalidClient
  else .read (.clientsGet (r.get g!"client_id")) fun
    | .error _ => errL 400 .invalidRequest
    | .ok none => .panic
    | .ok (some client) =>
      match (if client.subjectType = g!"pairwise" then Lib.pairwise S.pairHash S.pairSalt client.sectorIdentifier sub
             else some sub) with
      | none => errL 500 .serverError
      | some sub =>
        match decodeRequest S client (r.get g!"request") with
        | none => errL 400 .invalidRequest
        | some ar =>
          .svc (.authorize (some { issuer := S.issuer, client := some client, subject := sub, request := some ar })) fun
            | .authorize res => if res.goErr then withErrorL 400 res.error else .ofProg (deliver S res) .ret
            | _ => .panic

/-- What follows client authentication. -/
def behindAuth (S : Server) (r : Req) (h : Option Client → Lay) : Lay :=
  .ofProg (authP S r) fun x => Sum.elim Lay.ret h x

/-- What follows the login. -/
def behindLogin (r : Req) (h : Str → Lay) : Lay :=
  match r.basic with
  | none => .ret ⟨401, .empty⟩
  | some (u, p) =>
    if (Go.trimSpace u).length < 1 ∨ (Go.trimSpace p).length < 1 then .ret ⟨401, .empty⟩
    else if u ≠ g!"hello" ∨ p ≠ g!"world" then .ret ⟨401, .empty⟩
    else h u

/-- The endpoints in layers. -/
def lay (S : Server) : Route → Req → Lay
  | .par, r => behindAuth S r (parL S r)
  | .authorize, r => behindLogin r (authorizeL S r)
  | .token, r => behindAuth S r (tokenL S r)
  | .introspect, r => behindAuth S r (introspectL S r)
  | .revoke, r => behindAuth S r (revokeL S r)
  | .deviceAuthorize, r => behindAuth S r (fun _ => deviceAuthzL S r)
  | .device, r => behindLogin r (deviceL S r)

theorem flat_withError (E : Env) (n : Nat) (e : Option OErr) : (withErrorL n e).flat E = withError n e := by
  unfold withErrorL withError
  cases e <;> rfl

theorem bind_ret' {α : Type} (p : Prog α) : (p >>= fun a => Prog.ret a) = p := by
  induction p with
  | ret a => rfl
  | panic => rfl
  | op c k ih => simp only [bind_op]; congr; funext r; exact ih r

theorem flat_tokenCall (S : Server) (r : Req) (c : Client) (cnf : Option Cnf) (d : Bool) :
    (tokenCallL S r c cnf d).flat S.E = TokenSvc.token S.E (some (tokenMsg S r c cnf)) >>= tokenAnswer d := by
  unfold tokenCallL
  simp only [Lay.flat, handle, bind_assoc', bind_pure', Lay.flat_ofProg, bind_ret']

theorem flat_behindAuth (S : Server) (r : Req) (h : Option Client → Lay) :
    (behindAuth S r h).flat S.E = clientAuth S r fun c => (h c).flat S.E := by
  rw [clientAuth_eq, behindAuth, Lay.flat_ofProg]
  congr
  funext x
  cases x <;> rfl

theorem flat_behindLogin (E : Env) (r : Req) (h : Str → Lay) :
    (behindLogin r h).flat E = basicAuth r fun u => (h u).flat E := by
  unfold behindLogin basicAuth
  cases r.basic with
  | none => rfl
  | some x =>
    dsimp only
    split
    · rfl
    · split <;> rfl

/-- The layers are the endpoints. -/
theorem flat_lay (S : Server) (route : Route) (r : Req) : (lay S route r).flat S.E = serve S route r := by
  cases route with
  | par =>
    unfold lay serve
    rw [flat_behindAuth]
    congr
    funext c
    unfold parL parHandler
    split
    · rfl
    · cases c with
      | none => rfl
      | some c =>
        simp only [Lay.flat, handle, bind_assoc', bind_pure']
        congr
        funext x
        cases x with
        | none => rfl
        | some x =>
          dsimp only
          cases decodeRequest S c (r.get g!"request") with
          | none => rfl
          | some ar =>
            simp only [Lay.flat, handle, bind_assoc', bind_pure']
            congr
            funext res
            split
            · exact flat_withError _ _ _
            · rfl
  | authorize =>
    unfold lay serve
    rw [flat_behindLogin]
    congr
    funext u
    unfold authorizeL authorizeHandler
    split
    · rfl
    · split
      · rfl
      · change Prog.op _ _ = Prog.op _ _
        congr
        funext x
        rcases x with _ | _ | client
        · rfl
        · rfl
        · simp only [Prog.bind]
          generalize (if client.subjectType = g!"pairwise" then Lib.pairwise S.pairHash S.pairSalt client.sectorIdentifier u
             else some u) = o
          cases o with
          | none => rfl
          | some sub =>
            dsimp only
            cases decodeRequest S client (r.get g!"request") with
            | none => rfl
            | some ar =>
              simp only [Lay.flat, handle, bind_assoc', bind_pure']
              congr
              funext res
              split
              · exact flat_withError _ _ _
              · rw [Lay.flat_ofProg]; exact bind_ret' _
  | token =>
    unfold lay serve
    rw [flat_behindAuth]
    congr
    funext c
    unfold tokenL tokenHandler
    split
    · rfl
    · cases c with
      | none => rfl
      | some c =>
        dsimp only
        split
        · rfl
        · split
          · exact flat_tokenCall _ _ _ _ _
          · simp only [Lay.flat, handle, bind_assoc', bind_pure']
            congr
            funext x
            cases x with
            | none => rfl
            | some x => exact flat_tokenCall _ _ _ _ _
  | introspect =>
    unfold lay serve
    rw [flat_behindAuth]
    congr
    funext c
    unfold introspectL introspectHandler
    cases c with
    | none => rfl
    | some c =>
      simp only [Lay.flat, handle, bind_assoc', bind_pure']
      congr
      funext res
      split
      · exact flat_withError _ _ _
      · cases res.token with
        | none => rfl
        | some t =>
          dsimp only
          split
          · rw [Lay.flat_ofProg]
            congr
            funext u
            cases u
            · rfl
            · cases t.metadata <;> rfl
          · rfl
  | revoke =>
    unfold lay serve
    rw [flat_behindAuth]
    congr
    funext c
    unfold revokeL revokeHandler
    cases c with
    | none => rfl
    | some c =>
      simp only [Lay.flat, handle, bind_assoc', bind_pure']
      congr
      funext res
      split
      · exact flat_withError _ _ _
      · rfl
  | deviceAuthorize =>
    unfold lay serve
    rw [flat_behindAuth]
    congr
    funext c
    unfold deviceAuthzL deviceAuthzHandler
    split
    · rfl
    · simp only [Lay.flat, handle, bind_assoc', bind_pure']
      congr
      funext res
      split
      · exact flat_withError _ _ _
      · rfl
  | device =>
    unfold lay serve
    rw [flat_behindLogin]
    congr
    funext u
    unfold deviceL deviceHandler
    split
    · rfl
    · split
      · rfl
      · split
        · simp only [Lay.flat, handle, bind_assoc', bind_pure']
          congr
          funext res
          split
          · exact flat_withError _ _ _
          · rfl
        · rfl

/-! ### Only reads besides the services -/

theorem only_tokenAnswer (d : Bool) (res : TokenResp) : Only Props.isReadOnly (tokenAnswer d res) := by
  unfold tokenAnswer withError
  repeat' split
  all_goals first
    | trivial
    | exact ⟨rfl, fun _ => trivial⟩

theorem only_isUsable (t : Option Token) : Only Props.isReadOnly (TokenGen.isUsable t) := by
  unfold TokenGen.isUsable
  repeat' split
  all_goals first
    | trivial
    | (refine ⟨rfl, fun now => ?_⟩
       simp only [Prog.bind]
       repeat' split
       all_goals trivial)

theorem only_deliver (S : Server) (res : AuthorizeResp) : Only Props.isReadOnly (deliver S res) := by
  have hj : ∀ i x, Only Props.isReadOnly (Sign.jarmEncode S.jarmSer i x) := by
    intro i x
    unfold Sign.jarmEncode
    repeat' split
    all_goals first
      | trivial
      | exact ⟨rfl, fun _ => trivial⟩
  unfold deliver
  split
  · trivial
  · split
    · trivial
    · refine only_bind (hj _ _) ?_
      rintro (_ | t) <;> trivial

theorem good_withError (n : Nat) (e : Option OErr) : (withErrorL n e).Good := by
  cases e <;> trivial

theorem good_behindAuth (S : Server) (r : Req) {h : Option Client → Lay} (hh : ∀ c, (h c).Good) :
    (behindAuth S r h).Good := by
  refine Lay.good_ofProg (only_authP S r) ?_
  rintro (a | c)
  · trivial
  · exact hh c

theorem good_behindLogin (r : Req) {h : Str → Lay} (hh : ∀ c, (h c).Good) : (behindLogin r h).Good := by
  unfold behindLogin
  repeat' split
  all_goals first
    | trivial
    | exact hh _

theorem good_tokenCall (S : Server) (r : Req) (c : Client) (cnf : Option Cnf) (d : Bool) : (tokenCallL S r c cnf d).Good := by
  intro a
  cases a <;> first | trivial | exact Lay.good_ofProg (only_tokenAnswer _ _) fun _ => trivial

theorem good_lay (S : Server) (route : Route) (r : Req) : (lay S route r).Good := by
  cases route with
  | par =>
    refine good_behindAuth S r fun c => ?_
    unfold parL
    split
    · trivial
    · cases c with
      | none => trivial
      | some c =>
        intro a
        cases a with
        | dpop t =>
          cases t with
          | none => trivial
          | some t =>
            dsimp only
            split
            · trivial
            · intro a
              cases a with
              | register res =>
                dsimp only
                split
                · exact good_withError _ _
                · trivial
              | _ => trivial
        | _ => trivial
  | authorize =>
    refine good_behindLogin r fun u => ?_
    unfold authorizeL
    split
    · trivial
    · split
      · trivial
      · refine ⟨rfl, ?_⟩
        rintro (_ | _ | client)
        · trivial
        · trivial
        · dsimp only
          split
          · trivial
          · split
            · trivial
            · intro a
              cases a with
              | authorize res =>
                dsimp only
                split
                · exact good_withError _ _
                · exact Lay.good_ofProg (only_deliver _ _) fun _ => trivial
              | _ => trivial
  | token =>
    refine good_behindAuth S r fun c => ?_
    unfold tokenL
    split
    · trivial
    · cases c with
      | none => trivial
      | some c =>
        dsimp only
        split
        · trivial
        · split
          · exact good_tokenCall _ _ _ _ _
          · intro a
            cases a with
            | dpop t =>
              cases t with
              | none => trivial
              | some t => exact good_tokenCall _ _ _ _ _
            | _ => trivial
  | introspect =>
    refine good_behindAuth S r fun c => ?_
    unfold introspectL
    cases c with
    | none => trivial
    | some c =>
      intro a
      cases a with
      | introspect res =>
        dsimp only
        split
        · exact good_withError _ _
        · split
          · trivial
          · split
            · refine Lay.good_ofProg (only_isUsable _) fun u => ?_
              split
              · split <;> trivial
              · trivial
            · trivial
      | _ => trivial
  | revoke =>
    refine good_behindAuth S r fun c => ?_
    unfold revokeL
    cases c with
    | none => trivial
    | some c =>
      intro a
      cases a with
      | revoke res =>
        dsimp only
        split
        · exact good_withError _ _
        · trivial
      | _ => trivial
  | deviceAuthorize =>
    refine good_behindAuth S r fun c => ?_
    unfold deviceAuthzL
    split
    · trivial
    · intro a
      cases a with
      | deviceAuthorize res =>
        dsimp only
        split
        · exact good_withError _ _
        · trivial
      | _ => trivial
  | device =>
    refine good_behindLogin r fun u => ?_
    unfold deviceL
    split
    · trivial
    · split
      · trivial
      · split
        · intro a
          cases a with
          | deviceValidate res =>
            dsimp only
            split
            · exact good_withError _ _
            · trivial
          | _ => trivial
        · trivial

end Verif.Http
