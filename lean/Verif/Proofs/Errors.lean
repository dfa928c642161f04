import Verif.Spec.Errors
import Verif.Proofs.Token

/-! Why the token service refuses, for every behaviour of stores and generators. -/
namespace Verif.TokenSvc
open Verif.Prog Verif.Oidc Verif.StringArray Verif.Spec
open Verif.Device (unix)

/-- Calls that only mint or revoke, without trouble. -/
def Minting (ev : Ev) : Prop :=
  match ev with
  | ⟨.now, _⟩ => True
  | ⟨.jti, _⟩ => True
  | ⟨.genAT _, r⟩ => ∃ v, v ≠ [] ∧ r = .ok v
  | ⟨.genRT _, r⟩ => ∃ v, v ≠ [] ∧ r = .ok v
  | ⟨.tkCreate .., r⟩ => r = .ok ()
  | ⟨.tkRevoke .., r⟩ => r = .ok ()
  | _ => False

theorem Minting.not_broken {ev : Ev} (h : Minting ev) : ¬ Broken ev := by
  obtain ⟨c, r⟩ := ev
  cases c <;> simp only [Minting, Broken] at h ⊢ <;> first | exact h.elim | skip
  all_goals first
    | exact not_false
    | (rw [h]; rintro ⟨e, he⟩; cases he)
    | (obtain ⟨v, hv, h⟩ := h
       rw [h]
       rintro (he | ⟨e, he⟩)
       · exact hv (Except.ok.inj he)
       · cases he)

/-- The outcome of minting: trouble, or a token. -/
def Yields (acc tr : List Ev) (res : Option Token) : Prop :=
  (res = none ∧ ∃ ev ∈ tr, Broken ev) ∨ (res.isSome = true ∧ ∃ evs, tr = acc ++ evs ∧ ∀ ev ∈ evs, Minting ev)

theorem generateAccessToken_mints (client : Client) (md : TokenMeta) (cnf : Option Cnf) (acc : List Ev) :
    Done (Yields acc) (generateAccessToken client md cnf) acc := by
  unfold generateAccessToken
  simp only [Prog.call, bind_op, bind_ret, pure_eq, Done]
  intro now jti
  rintro (e | v)
  · left; exact ⟨rfl, _, List.mem_append_right _ (List.mem_cons_self ..), Or.inr ⟨_, rfl⟩⟩
  · simp only
    split
    · rename_i hv
      subst hv
      left; exact ⟨rfl, _, List.mem_append_right _ (List.mem_cons_self ..), Or.inl rfl⟩
    · rename_i hv
      simp only [Done]
      rintro (e | u)
      · left; exact ⟨rfl, _, List.mem_append_right _ (List.mem_cons_self ..), _, rfl⟩
      · right
        refine ⟨rfl, _, by simp only [List.append_assoc]; rfl, ?_⟩
        intro ev hev
        simp only [List.cons_append, List.nil_append, List.mem_cons, List.not_mem_nil, or_false] at hev
        rcases hev with rfl | rfl | rfl | rfl
        · trivial
        · trivial
        · exact ⟨v, hv, rfl⟩
        · rfl

theorem generateRefreshToken_mints (client : Client) (md : TokenMeta) (cnf : Option Cnf) (acc : List Ev) :
    Done (Yields acc) (generateRefreshToken client md cnf) acc := by
  unfold generateRefreshToken
  simp only [Prog.call, bind_op, bind_ret, pure_eq, Done]
  intro now jti
  rintro (e | v)
  · left; exact ⟨rfl, _, List.mem_append_right _ (List.mem_cons_self ..), Or.inr ⟨_, rfl⟩⟩
  · simp only
    split
    · rename_i hv
      subst hv
      left; exact ⟨rfl, _, List.mem_append_right _ (List.mem_cons_self ..), Or.inl rfl⟩
    · rename_i hv
      simp only [Done]
      rintro (e | u)
      · left; exact ⟨rfl, _, List.mem_append_right _ (List.mem_cons_self ..), _, rfl⟩
      · right
        refine ⟨rfl, _, by simp only [List.append_assoc]; rfl, ?_⟩
        intro ev hev
        simp only [List.cons_append, List.nil_append, List.mem_cons, List.not_mem_nil, or_false] at hev
        rcases hev with rfl | rfl | rfl | rfl
        · trivial
        · trivial
        · exact ⟨v, hv, rfl⟩
        · rfl

/-- What is left of a grant once its checks passed: trouble, or success after minting. -/
def Ends (acc tr : List Ev) (a : TokenResp) : Prop :=
  (a = fail .serverError ∧ ∃ ev ∈ tr, Broken ev) ∨ (a.goErr = false ∧ ∃ evs, tr = acc ++ evs ∧ ∀ ev ∈ evs, Minting ev)

theorem mint_two {acc evs tr2 : List Ev} {res : Option Token} (h : ∀ ev ∈ evs, Minting ev)
    (h2 : Yields (acc ++ evs) tr2 res) : (res = none ∧ ∃ ev ∈ tr2, Broken ev) ∨
      (res.isSome = true ∧ ∃ evs, tr2 = acc ++ evs ∧ ∀ ev ∈ evs, Minting ev) := by
  rcases h2 with h2 | ⟨h3, evs2, rfl, h4⟩
  · exact Or.inl h2
  · refine Or.inr ⟨h3, evs ++ evs2, by simp, ?_⟩
    intro ev hev
    rcases List.mem_append.1 hev with hev | hev
    · exact h ev hev
    · exact h4 ev hev

theorem codeTokens_ends (client : Client) (req : TokenReq) (subject : Str) (ar : AuthzRequest) (acc : List Ev) :
    Done (Ends acc) (codeTokens client req subject ar) acc := by
  unfold codeTokens
  simp only
  split
  · rw [done_bind]
    refine done_mono (generateAccessToken_mints client _ _ acc) ?_
    rintro tr res (⟨rfl, hb⟩ | ⟨hs, evs, rfl, hm⟩)
    · exact Or.inl ⟨rfl, hb⟩
    · obtain ⟨at_, rfl⟩ := Option.isSome_iff_exists.1 hs
      simp only
      split
      · rw [done_bind]
        refine done_mono (generateRefreshToken_mints client _ _ _) ?_
        rintro tr2 res2 h2
        rcases mint_two hm h2 with ⟨rfl, hb⟩ | ⟨hs2, evs2, rfl, hm2⟩
        · exact Or.inl ⟨rfl, hb⟩
        · obtain ⟨rt, rfl⟩ := Option.isSome_iff_exists.1 hs2
          exact Or.inr ⟨rfl, evs2, rfl, hm2⟩
      · exact Or.inr ⟨rfl, evs, rfl, hm⟩
  · exact Or.inr ⟨rfl, [], by simp, by simp⟩

theorem deviceTokens_ends (client : Client) (req : TokenReq) (subject : Str) (scope : Option Str) (acc : List Ev) :
    Done (Ends acc) (deviceTokens client req subject scope) acc := by
  unfold deviceTokens
  simp only [done_bind]
  refine done_mono (generateAccessToken_mints client _ _ acc) ?_
  rintro tr res (⟨rfl, hb⟩ | ⟨hs, evs, rfl, hm⟩)
  · exact Or.inl ⟨rfl, hb⟩
  · obtain ⟨at_, rfl⟩ := Option.isSome_iff_exists.1 hs
    cases scope with
    | none => exact Or.inr ⟨rfl, evs, rfl, hm⟩
    | some sc =>
      simp only
      split
      · rw [done_bind]
        refine done_mono (generateRefreshToken_mints client _ _ _) ?_
        rintro tr2 res2 h2
        rcases mint_two hm h2 with ⟨rfl, hb⟩ | ⟨hs2, evs2, rfl, hm2⟩
        · exact Or.inl ⟨rfl, hb⟩
        · obtain ⟨rt, rfl⟩ := Option.isSome_iff_exists.1 hs2
          exact Or.inr ⟨rfl, evs2, rfl, hm2⟩
      · exact Or.inr ⟨rfl, evs, rfl, hm⟩

theorem refreshTokens_ends (client : Client) (req : TokenReq) (rt : Token) (md : TokenMeta) (acc : List Ev) :
    Done (Ends acc) (refreshTokens client req rt md) acc := by
  unfold refreshTokens
  simp only [done_bind]
  refine done_mono (generateAccessToken_mints client _ _ acc) ?_
  rintro tr res (⟨rfl, hb⟩ | ⟨hs, evs, rfl, hm⟩)
  · exact Or.inl ⟨rfl, hb⟩
  · obtain ⟨at_, rfl⟩ := Option.isSome_iff_exists.1 hs
    simp only
    split
    · rw [done_bind]
      refine done_mono (generateRefreshToken_mints client _ _ _) ?_
      rintro tr2 res2 h2
      rcases mint_two hm h2 with ⟨rfl, hb⟩ | ⟨hs2, evs2, rfl, hm2⟩
      · exact Or.inl ⟨rfl, hb⟩
      · obtain ⟨nrt, rfl⟩ := Option.isSome_iff_exists.1 hs2
        simp only [Prog.call, bind_op, bind_ret, pure_eq, Done]
        rintro (e | u)
        · exact Or.inl ⟨rfl, _, List.mem_append_right _ (List.mem_cons_self ..), _, rfl⟩
        · refine Or.inr ⟨rfl, evs2 ++ [_], by simp only [List.append_assoc]; rfl, ?_⟩
          intro ev hev
          rcases List.mem_append.1 hev with hev | hev
          · exact hm2 ev hev
          · rw [List.mem_singleton.1 hev]; rfl
    · exact Or.inr ⟨rfl, evs, rfl, hm⟩

/-! ### Refusals -/

/-- The verdict on an execution: refused for a reason that is told, or served without one. -/
def Verdict (E : Env) (req : TokenReq) (tr : List Ev) (a : TokenResp) : Prop :=
  (a.goErr = true ∧ ∃ k, HasReason E (some req) tr k ∧ Tells (some req) tr a k) ∨
  (a.goErr = false ∧ ∀ k, ¬ HasReason E (some req) tr k)

theorem refuse {E : Env} {req : TokenReq} {tr : List Ev} (k : Reason) (h : HasReason E (some req) tr k) {c : ErrCode}
    (hc : k.given = some c) : Verdict E req tr (fail c) :=
  Or.inl ⟨rfl, k, h, Or.inl ⟨_, rfl, hc, Or.inl rfl⟩⟩

/-- The execution met the client `c`, found the registration `cl`, and made the calls `pre`. -/
structure Begun (E : Env) (req : TokenReq) (c cl : Client) (acc : List Ev) : Prop where
  client : req.client = some c
  trace : acc = [⟨.clientsGet c.clientId, .ok (some cl)⟩]

theorem Begun.by {E : Env} {req : TokenReq} {c cl : Client} {acc : List Ev} (h : Begun E req c cl acc) (l : List Ev) :
    ByClient req (acc ++ l) cl := ⟨c, h.client, by rw [h.trace]; simp⟩

theorem not_contains {l : List Str} {x : Str} (h : ¬ contains l x = true) : ¬ MemFold x l :=
  fun h' => h ((contains_iff _ _).2 h')

/-- After the lookups `pre`, only minting happened. -/
theorem mem_lookup {pre evs : List Ev} (h : ∀ ev ∈ evs, Minting ev) {ev : Ev} (hn : ¬ Minting ev) :
    ev ∈ pre ++ evs ↔ ev ∈ pre := by
  rw [List.mem_append]
  exact ⟨fun h' => h'.resolve_right fun h'' => hn (h ev h''), Or.inl⟩

theorem broken_in {pre evs : List Ev} (h : ∀ ev ∈ evs, Minting ev) :
    (∃ ev ∈ pre ++ evs, Broken ev) ↔ ∃ ev ∈ pre, Broken ev := by
  constructor
  · rintro ⟨ev, hev, hb⟩
    rcases List.mem_append.1 hev with hev | hev
    · exact ⟨ev, hev, hb⟩
    · exact absurd hb (h ev hev).not_broken
  · rintro ⟨ev, hev, hb⟩
    exact ⟨ev, List.mem_append_left _ hev, hb⟩

/-- The calls of an execution that got through: the registration `cl` of the client, the lookups
`look`, and minting. -/
structure Through (E : Env) (req : TokenReq) (c cl : Client) (look tr : List Ev) : Prop where
  client : req.client = some c
  calls : ∃ evs, tr = (⟨.clientsGet c.clientId, .ok (some cl)⟩ :: look) ++ evs ∧ ∀ ev ∈ evs, Minting ev
  others : ∀ id r, ⟨.clientsGet id, r⟩ ∉ look
  clean : ∀ ev ∈ look, ¬ Broken ev

theorem Through.mem {E : Env} {req : TokenReq} {c cl : Client} {look tr : List Ev} (h : Through E req c cl look tr) {ev : Ev}
    (hn : ¬ Minting ev) (hc : ∀ id r, ev ≠ ⟨.clientsGet id, r⟩) (he : ev ∈ tr) : ev ∈ look := by
  obtain ⟨evs, rfl, hm⟩ := h.calls
  rcases List.mem_cons.1 ((mem_lookup hm hn).1 he) with rfl | he
  · exact absurd rfl (hc _ _)
  · exact he

theorem Through.found {E : Env} {req : TokenReq} {c cl : Client} {look tr : List Ev} (h : Through E req c cl look tr)
    {id : Str} {r : SRes (Option Client)} (he : (⟨.clientsGet id, r⟩ : Ev) ∈ tr) : r = .ok (some cl) := by
  obtain ⟨evs, rfl, hm⟩ := h.calls
  rcases List.mem_cons.1 ((mem_lookup hm (by simp [Minting])).1 he) with he | he
  · cases he; rfl
  · exact absurd he (h.others _ _)

theorem Through.by {E : Env} {req : TokenReq} {c cl : Client} {look tr : List Ev} (h : Through E req c cl look tr)
    {cl' : Client} (hb : ByClient req tr cl') : cl' = cl := by
  obtain ⟨c', _, he⟩ := hb
  exact Option.some.inj (Except.ok.inj (h.found he))

/-- The reasons that do not depend on the grant. -/
theorem Through.none {E : Env} {req : TokenReq} {c cl : Client} {look tr : List Ev} (h : Through E req c cl look tr)
    (h1 : ¬ req.issuer = []) (h2 : ¬ ¬ E.parseRequestURI req.issuer = true) {g : Grant} (hg : req.grant = some g)
    (hf : Fits req.grantType g) (hr : MemFold req.grantType cl.grantTypes)
    (hrest : ∀ k, k = .publicClient ∨ k = .codeParameter ∨ k = .parameter ∨ k = .codeUnknown ∨ k = .codeMismatch ∨
      k = .deviceUnknown ∨ k = .deviceForeign ∨ k = .deviceExpired ∨ k = .devicePending ∨ k = .deviceState ∨
      k = .refreshInvalid ∨ k = .subjectInvalid ∨ k = .audienceUnknown → ¬ HasReason E (some req) tr k)
    {a : TokenResp} (ha : a.goErr = false) : Verdict E req tr a := by
  refine Or.inr ⟨ha, ?_⟩
  have hk : req.grantType ∈ knownGrants := by
    generalize req.grantType = t at hf
    cases hf <;> simp [knownGrants]
  intro k
  by_cases hin : k = .publicClient ∨ k = .codeParameter ∨ k = .parameter ∨ k = .codeUnknown ∨ k = .codeMismatch ∨
      k = .deviceUnknown ∨ k = .deviceForeign ∨ k = .deviceExpired ∨ k = .devicePending ∨ k = .deviceState ∨
      k = .refreshInvalid ∨ k = .subjectInvalid ∨ k = .audienceUnknown
  · exact hrest k hin
  cases k <;> first | (refine absurd ?_ hin; simp; done) | skip
  · exact id
  · rintro (h' | h')
    · exact h1 h'
    · simp [h'] at h2
  · intro h'; have := h.client; rw [h'] at this; cases this
  · rintro ⟨c', _, he⟩
    cases h.found he
  · exact fun h' => h' hk
  · rintro ⟨-, h'⟩; exact h' g hg hf
  · rintro ⟨cl', hb, h'⟩; rw [h.by hb] at h'; exact h' hr
  · obtain ⟨evs, rfl, hm⟩ := h.calls
    rw [HasReason, broken_in hm]
    rintro ⟨ev, hev, hb⟩
    rcases List.mem_cons.1 hev with rfl | hev
    · rcases hb with hb | hb <;> cases hb
    · exact h.clean ev hev hb

theorem clientCredentials_verdict {E : Env} {req : TokenReq} {c cl : Client} {acc : List Ev} (hb : Begun E req c cl acc)
    (ht : req.grantType = g!"client_credentials") (hg : req.grant = some .clientCredentials) :
    Done (Verdict E req) (clientCredentials E (some cl) req) acc := by
  have hby := hb.by []
  rw [List.append_nil] at hby
  unfold clientCredentials
  simp only
  split; · rename_i h; exact refuse .issuer (Or.inl h) rfl
  split; · rename_i h; exact refuse .issuer (Or.inr (by simpa using h)) rfl
  split
  · rename_i h
    exact refuse .publicClient ⟨hg, cl, hby, fun h' => h (Or.inl h'), fun h' => h (Or.inr h')⟩ rfl
  split
  · rename_i h
    exact refuse .notRegistered ⟨cl, hby, by rw [ht]; exact not_contains h⟩ rfl
  rename_i h1 h2 h3 h4
  rw [done_bind]
  refine done_mono (generateAccessToken_mints cl _ _ acc) ?_
  rintro tr res (⟨rfl, hbr⟩ | ⟨hs, evs, rfl, hm⟩)
  · exact refuse .broken hbr rfl
  · obtain ⟨at_, rfl⟩ := Option.isSome_iff_exists.1 hs
    obtain ⟨hcl, rfl⟩ := hb
    have th : Through E req c cl [] ([⟨.clientsGet c.clientId, .ok (some cl)⟩] ++ evs) := ⟨hcl, ⟨evs, rfl, hm⟩, by simp, by simp⟩
    refine th.none h1 h2 hg (ht ▸ .cc) (ht ▸ memFold_of h4) ?_ rfl
    rintro k (rfl | rfl | rfl | rfl | rfl | rfl | rfl | rfl | rfl | rfl | rfl | rfl | rfl)
    · rintro ⟨-, cl', hb', h5, h6⟩
      rw [th.by hb'] at h5 h6
      exact h3 fun h' => h'.elim h5 h6
    all_goals simp [HasReason, hg]

theorem mem_last {acc : List Ev} {ev : Ev} : ev ∈ acc ++ [ev] := List.mem_append_right _ (List.mem_singleton.2 rfl)

theorem refuseB {E : Env} {req : TokenReq} {acc : List Ev} {ev : Ev} (h : Broken ev) :
    Verdict E req (acc ++ [ev]) (fail .serverError) := refuse .broken ⟨ev, mem_last, h⟩ rfl

theorem codeChecks_reason (E : Env) (cl : Client) (g : GrantCode) (ar : AuthzRequest) :
    (codeChecks E cl g ar = some (failS .invalidGrant ar.state) ∧ (g.redirectUri ≠ ar.redirectUri ∨
      ¬ MemFold g.redirectUri cl.redirectUris ∨ ar.codeChallengeMethod ≠ g!"S256" ∨
      Go.b64 (E.sha256 g.codeVerifier) ≠ ar.codeChallenge)) ∨
    (codeChecks E cl g ar = none ∧ CodeOk E cl g ar) := by
  unfold codeChecks
  split
  · rename_i h; exact Or.inl ⟨rfl, Or.inl fun h' => h h'.symm⟩
  split
  · rename_i h; exact Or.inl ⟨rfl, Or.inr (Or.inl (not_contains h))⟩
  split
  · split
    · rename_i h; exact Or.inl ⟨rfl, Or.inr (Or.inr (Or.inr h))⟩
    · right
      rename_i h1 h2 h3 h4
      exact ⟨rfl, ⟨by simpa using h1, memFold_of h2, h3, by simpa using h4⟩⟩
  · rename_i h; exact Or.inl ⟨rfl, Or.inr (Or.inr (Or.inl h))⟩

theorem authorizationCode_verdict {E : Env} {req : TokenReq} {c cl : Client} {acc : List Ev} (hb : Begun E req c cl acc)
    {g : GrantCode} (ht : req.grantType = g!"authorization_code") (hg : req.grant = some (.authorizationCode g)) :
    Done (Verdict E req) (authorizationCode E (some cl) req g) acc := by
  have hby := hb.by []
  rw [List.append_nil] at hby
  unfold authorizationCode
  simp only
  split; · rename_i h; exact refuse .issuer (Or.inl h) rfl
  split; · rename_i h; exact refuse .issuer (Or.inr (by simpa using h)) rfl
  split
  · rename_i h
    exact refuse .notRegistered ⟨cl, hby, by rw [ht]; exact not_contains h⟩ rfl
  split
  · rename_i h
    refine refuse .codeParameter ⟨g, hg, ?_⟩ rfl
    rcases h with h | h | h <;> simp [h]
  split; · rename_i h; exact refuse .codeParameter ⟨g, hg, by simp [h]⟩ rfl
  split; · rename_i h; exact refuse .codeParameter ⟨g, hg, by simp [h]⟩ rfl
  split; · rename_i h; exact refuse .codeParameter ⟨g, hg, by simp [h]⟩ rfl
  rename_i h1 h2 h3 h4 h5 h6 h7
  simp only [Prog.call, bind_op, bind_ret, pure_eq, Done]
  rintro ((_ | _) | (_ | sess))
  · exact refuse .codeUnknown ⟨g, hg, Or.inl mem_last⟩ rfl
  · exact refuseB rfl
  · trivial
  · simp only
    cases hr : sess.request with
    | none => exact refuse .codeUnknown ⟨g, hg, Or.inr ⟨sess, mem_last, hr⟩⟩ rfl
    | some ar =>
      simp only [Done]
      rintro (e | u)
      · exact refuseB ⟨_, rfl⟩
      · simp only
        have hmem : ⟨.csGet req.issuer g.code, .ok (some sess)⟩ ∈ acc ++ [⟨.csGet req.issuer g.code, .ok (some sess)⟩] ++
          [⟨.csDel req.issuer g.code, .ok u⟩] := List.mem_append_left _ mem_last
        rcases codeChecks_reason E cl g ar with ⟨hc, hw⟩ | ⟨hc, hok⟩
        · rw [hc]
          simp only [Done]
          refine Or.inl ⟨rfl, .codeMismatch, ⟨g, sess, ar, cl, hg, hmem, hr, ?_, hw⟩, Or.inl ⟨_, rfl, rfl, ?_⟩⟩
          · rw [List.append_assoc]; exact hb.by _
          · by_cases hs : ar.state = []
            · exact Or.inl (by simp [OErr.withState, hs])
            · exact Or.inr ⟨rfl, req, g, sess, ar, rfl, hg, hmem, hr, by simp [OErr.withState, hs]⟩
        · rw [hc]
          simp only
          refine done_mono (codeTokens_ends cl req sess.subject ar _) ?_
          rintro tr a (⟨rfl, hbr⟩ | ⟨ha, evs, rfl, hm⟩)
          · exact refuse .broken hbr rfl
          · obtain ⟨hcl, rfl⟩ := hb
            have th : Through E req c cl [⟨.csGet req.issuer g.code, .ok (some sess)⟩, ⟨.csDel req.issuer g.code, .ok u⟩]
              ([⟨.clientsGet c.clientId, .ok (some cl)⟩] ++ [⟨.csGet req.issuer g.code, .ok (some sess)⟩] ++
                [⟨.csDel req.issuer g.code, .ok u⟩] ++ evs) := by
              refine ⟨hcl, ⟨evs, rfl, hm⟩, by simp, ?_⟩
              intro ev hev
              simp only [List.mem_cons, List.not_mem_nil, or_false] at hev
              rcases hev with rfl | rfl
              · intro h'; cases h'
              · rintro ⟨e, h'⟩; cases h'
            refine th.none h1 h2 hg (ht ▸ .code g) (ht ▸ memFold_of h3) ?_ ha
            have look : ∀ r, (⟨.csGet req.issuer g.code, r⟩ : Ev) ∈ ([⟨.clientsGet c.clientId, .ok (some cl)⟩] ++ [⟨.csGet req.issuer g.code, .ok (some sess)⟩] ++ [⟨.csDel req.issuer g.code, .ok u⟩] ++ evs) → r = .ok (some sess) := by
              intro r hr'
              have := th.mem (by simp [Minting]) (by simp) hr'
              simp only [List.mem_cons, List.not_mem_nil, or_false] at this
              rcases this with h' | h' <;> cases h'
              rfl
            rintro k (rfl | rfl | rfl | rfl | rfl | rfl | rfl | rfl | rfl | rfl | rfl | rfl | rfl)
            · simp [HasReason, hg]
            · rintro ⟨g', hg', h'⟩
              cases hg.symm.trans hg'
              rcases h' with h' | h' | h' | h' | h' | h'
              · exact h4 (Or.inl h')
              · exact h4 (Or.inr (Or.inl h'))
              · exact h4 (Or.inr (Or.inr h'))
              · exact h5 h'
              · exact h6 h'
              · exact h7 h'
            · simp [HasReason, hg]
            · rintro ⟨g', hg', h' | ⟨s', h', h''⟩⟩ <;> cases hg.symm.trans hg'
              · cases look _ h'
              · cases look _ h'
                rw [hr] at h''; cases h''
            · rintro ⟨g', s', ar', cl', hg', h', h'', hb', h8⟩
              cases hg.symm.trans hg'
              cases look _ h'
              cases hr.symm.trans h''
              rw [th.by hb'] at h8
              rcases h8 with h8 | h8 | h8 | h8
              · exact h8 hok.redirect.symm
              · exact h8 hok.registered
              · exact h8 hok.method
              · exact h8 hok.pkce
            all_goals simp [HasReason, hg]

theorem deviceCode_verdict {E : Env} {req : TokenReq} {c cl : Client} {acc : List Ev} (hb : Begun E req c cl acc)
    {d : Str} (ht : req.grantType = g!"urn:ietf:params:oauth:grant-type:device_code") (hg : req.grant = some (.deviceCode d)) :
    Done (Verdict E req) (deviceCode E (some cl) req d) acc := by
  have hby := hb.by []
  rw [List.append_nil] at hby
  unfold deviceCode
  simp only
  split; · rename_i h; exact refuse .issuer (Or.inl h) rfl
  split; · rename_i h; exact refuse .issuer (Or.inr (by simpa using h)) rfl
  split
  · rename_i h
    exact refuse .notRegistered ⟨cl, hby, by rw [ht]; exact not_contains h⟩ rfl
  split; · rename_i h; exact refuse .parameter (Or.inl (by rw [hg, h])) rfl
  rename_i h1 h2 h3 h4
  simp only [Prog.call, bind_op, bind_ret, pure_eq, Done]
  rintro ((_ | _) | (_ | ⟨ref, session⟩))
  · exact refuse .deviceUnknown ⟨d, hg, mem_last⟩ rfl
  · exact refuseB (Or.inl rfl)
  · exact refuseB (Or.inr (Or.inl rfl))
  · simp only
    cases hr : session.request with
    | none => exact refuseB (Or.inr (Or.inr ⟨ref, session, rfl, Or.inl hr⟩))
    | some dreq =>
      simp only
      split
      · rename_i h
        exact refuseB (Or.inr (Or.inr ⟨ref, session, rfl, Or.inr (Or.inl (by simpa using h))⟩))
      split
      · rename_i h
        exact refuse .deviceForeign ⟨d, ref, session, dreq, cl, hg, mem_last, hr, hb.by _, h⟩ rfl
      rename_i h5 h6
      simp only [Done]
      intro now
      have hmem : ⟨.dsGetDev req.issuer d, .ok (some (ref, session))⟩ ∈
        acc ++ [⟨.dsGetDev req.issuer d, .ok (some (ref, session))⟩] ++ [⟨.now, now⟩] := List.mem_append_left _ mem_last
      have hclk : ∀ evs, firstClock (acc ++ [⟨.dsGetDev req.issuer d, .ok (some (ref, session))⟩] ++ [⟨.now, now⟩] ++ evs) = some now := by
        rw [hb.trace]; intro evs; rfl
      split
      · rename_i h
        exact refuse .deviceExpired ⟨d, ref, session, now, hg, hmem, by have := hclk []; rwa [List.append_nil] at this, h⟩ rfl
      split
      · rename_i h
        exact refuse .devicePending ⟨d, ref, session, hg, hmem, h⟩ rfl
      split
      · rename_i h h'
        exact refuse .deviceState ⟨d, ref, session, hg, hmem, h, h'⟩ rfl
      rename_i h7 h8 h9
      cases hs : session.subject with
      | none =>
        exact refuse .broken ⟨_, hmem, Or.inr (Or.inr ⟨ref, session, rfl, Or.inr (Or.inr ⟨hs, by simpa using h9⟩)⟩)⟩ rfl
      | some subject =>
        simp only
        refine done_mono (deviceTokens_ends cl req subject session.scope _) ?_
        rintro tr a (⟨rfl, hbr⟩ | ⟨ha, evs, rfl, hm⟩)
        · exact refuse .broken hbr rfl
        · obtain ⟨hcl, rfl⟩ := hb
          have th : Through E req c cl [⟨.dsGetDev req.issuer d, .ok (some (ref, session))⟩, ⟨.now, now⟩]
            ([⟨.clientsGet c.clientId, .ok (some cl)⟩] ++ [⟨.dsGetDev req.issuer d, .ok (some (ref, session))⟩] ++
              [⟨.now, now⟩] ++ evs) := by
            refine ⟨hcl, ⟨evs, rfl, hm⟩, by simp, ?_⟩
            intro ev hev
            simp only [List.mem_cons, List.not_mem_nil, or_false] at hev
            rcases hev with rfl | rfl
            · rintro (h' | h' | ⟨i, s', h', h''⟩)
              · cases h'
              · cases h'
              · cases h'
                rcases h'' with h'' | h'' | ⟨h'', -⟩
                · rw [hr] at h''; cases h''
                · simp [h''] at h5
                · rw [hs] at h''; cases h''
            · exact id
          refine th.none h1 h2 hg (ht ▸ .device d) (ht ▸ memFold_of h3) ?_ ha
          have look : ∀ r, (⟨.dsGetDev req.issuer d, r⟩ : Ev) ∈ ([⟨.clientsGet c.clientId, .ok (some cl)⟩] ++ [⟨.dsGetDev req.issuer d, .ok (some (ref, session))⟩] ++ [⟨.now, now⟩] ++ evs) → r = .ok (some (ref, session)) := by
            intro r hr'
            have := th.mem (by simp [Minting]) (by simp) hr'
            simp only [List.mem_cons, List.not_mem_nil, or_false] at this
            rcases this with h' | h' <;> cases h'
            rfl
          rintro k (rfl | rfl | rfl | rfl | rfl | rfl | rfl | rfl | rfl | rfl | rfl | rfl | rfl)
          · simp [HasReason, hg]
          · simp [HasReason, hg]
          · simp [HasReason, hg, h4]
          · simp [HasReason, hg]
          · simp [HasReason, hg]
          · rintro ⟨d', hg', h'⟩
            cases hg.symm.trans hg'
            cases look _ h'
          · rintro ⟨d', i, s', r', cl', hg', h', h'', hb', h10⟩
            cases hg.symm.trans hg'
            cases look _ h'
            cases hr.symm.trans h''
            rw [th.by hb'] at h10
            exact h6 h10
          · rintro ⟨d', i, s', t, hg', h', h'', h10⟩
            cases hg.symm.trans hg'
            cases look _ h'
            cases (hclk evs).symm.trans h''
            exact h7 h10
          · rintro ⟨d', i, s', hg', h', h''⟩
            cases hg.symm.trans hg'
            cases look _ h'
            exact h8 h''
          · rintro ⟨d', i, s', hg', h', -, h''⟩
            cases hg.symm.trans hg'
            cases look _ h'
            exact h9 h''
          all_goals simp [HasReason, hg]

theorem refreshToken_verdict {E : Env} {req : TokenReq} {c cl : Client} {acc : List Ev} (hb : Begun E req c cl acc)
    {v : Str} (ht : req.grantType = g!"refresh_token") (hg : req.grant = some (.refreshToken v)) :
    Done (Verdict E req) (refreshToken E (some cl) req v) acc := by
  have hby := hb.by []
  rw [List.append_nil] at hby
  unfold refreshToken
  simp only
  split; · rename_i h; exact refuse .issuer (Or.inl h) rfl
  split; · rename_i h; exact refuse .issuer (Or.inr (by simpa using h)) rfl
  split; · rename_i h; exact refuse .parameter (Or.inr (Or.inl (by rw [hg, h]))) rfl
  split
  · rename_i h
    exact refuse .notRegistered ⟨cl, hby, by rw [ht]; exact not_contains h⟩ rfl
  rename_i h1 h2 h3 h4
  simp only [Prog.call, bind_op, bind_ret, pure_eq, Done]
  rintro ((_ | _) | (_ | rt))
  · exact refuse .refreshInvalid ⟨v, hg, Or.inl mem_last⟩ rfl
  · exact refuseB (Or.inl rfl)
  · trivial
  · simp only
    split
    · rename_i h; exact refuse .refreshInvalid ⟨v, hg, Or.inr ⟨rt, mem_last, Or.inl h⟩⟩ rfl
    split
    · rename_i h; exact refuse .refreshInvalid ⟨v, hg, Or.inr ⟨rt, mem_last, Or.inr (Or.inl h)⟩⟩ rfl
    rename_i h5 h6
    cases hmd : rt.metadata with
    | none => exact refuseB (Or.inr ⟨rt, rfl, hmd⟩)
    | some md =>
      simp only [Done]
      intro now
      have hmem : ⟨.tkGetVal req.issuer v, .ok (some rt)⟩ ∈
        acc ++ [⟨.tkGetVal req.issuer v, .ok (some rt)⟩] ++ [⟨.now, now⟩] := List.mem_append_left _ mem_last
      have hclk : ∀ evs, firstClock (acc ++ [⟨.tkGetVal req.issuer v, .ok (some rt)⟩] ++ [⟨.now, now⟩] ++ evs) = some now := by
        rw [hb.trace]; intro evs; rfl
      split
      · rename_i h
        exact refuse .refreshInvalid ⟨v, hg, Or.inr ⟨rt, hmem, Or.inr (Or.inr ⟨md, hmd, Or.inl ⟨now,
          by have := hclk []; rwa [List.append_nil] at this, h⟩⟩)⟩⟩ rfl
      split
      · rename_i h
        exact refuse .refreshInvalid ⟨v, hg, Or.inr ⟨rt, hmem, Or.inr (Or.inr ⟨md, hmd, Or.inr ⟨cl,
          by rw [List.append_assoc]; exact hb.by _, h⟩⟩)⟩⟩ rfl
      rename_i h7 h8
      refine done_mono (refreshTokens_ends cl req rt md _) ?_
      rintro tr a (⟨rfl, hbr⟩ | ⟨ha, evs, rfl, hm⟩)
      · exact refuse .broken hbr rfl
      · obtain ⟨hcl, rfl⟩ := hb
        have th : Through E req c cl [⟨.tkGetVal req.issuer v, .ok (some rt)⟩, ⟨.now, now⟩]
          ([⟨.clientsGet c.clientId, .ok (some cl)⟩] ++ [⟨.tkGetVal req.issuer v, .ok (some rt)⟩] ++
            [⟨.now, now⟩] ++ evs) := by
          refine ⟨hcl, ⟨evs, rfl, hm⟩, by simp, ?_⟩
          intro ev hev
          simp only [List.mem_cons, List.not_mem_nil, or_false] at hev
          rcases hev with rfl | rfl
          · rintro (h' | ⟨t, h', h''⟩)
            · cases h'
            · cases h'
              rw [hmd] at h''; cases h''
          · exact id
        refine th.none h1 h2 hg (ht ▸ .refresh v) (ht ▸ memFold_of h4) ?_ ha
        have look : ∀ r, (⟨.tkGetVal req.issuer v, r⟩ : Ev) ∈ ([⟨.clientsGet c.clientId, .ok (some cl)⟩] ++ [⟨.tkGetVal req.issuer v, .ok (some rt)⟩] ++ [⟨.now, now⟩] ++ evs) → r = .ok (some rt) := by
          intro r hr'
          have := th.mem (by simp [Minting]) (by simp) hr'
          simp only [List.mem_cons, List.not_mem_nil, or_false] at this
          rcases this with h' | h' <;> cases h'
          rfl
        rintro k (rfl | rfl | rfl | rfl | rfl | rfl | rfl | rfl | rfl | rfl | rfl | rfl | rfl)
        · simp [HasReason, hg]
        · simp [HasReason, hg]
        · simp [HasReason, hg, h3]
        · simp [HasReason, hg]
        · simp [HasReason, hg]
        · simp [HasReason, hg]
        · simp [HasReason, hg]
        · simp [HasReason, hg]
        · simp [HasReason, hg]
        · simp [HasReason, hg]
        · rintro ⟨v', hg', h' | ⟨t, h', h''⟩⟩ <;> cases hg.symm.trans hg'
          · cases look _ h'
          · cases look _ h'
            rcases h'' with h'' | h'' | ⟨md', h'', ⟨n, h9, h10⟩ | ⟨cl', h9, h10⟩⟩
            · exact h5 h''
            · exact h6 h''
            · cases hmd.symm.trans h''
              cases (hclk evs).symm.trans h9
              exact h7 h10
            · cases hmd.symm.trans h''
              rw [th.by h9] at h10
              exact h8 h10
        all_goals simp [HasReason, hg]

/-- As `refuse`, for answers without a code. -/
theorem refuseBare {E : Env} {req : TokenReq} {tr : List Ev} {g : GrantExchange} (hg : req.grant = some (.tokenExchange g))
    (k : Reason) (h : HasReason E (some req) tr k) (hk : k.given = none ∨ k = .broken) : Verdict E req tr bareFail :=
  Or.inl ⟨rfl, k, h, Or.inr ⟨rfl, hk, req, g, rfl, hg⟩⟩

theorem exchangeFinish_ends {req : TokenReq} (md : TokenMeta) (scope : Str) (spec : Token) (acc : List Ev) :
    Done (fun tr a => (a = bareFail ∧ ∃ ev ∈ tr, Broken ev) ∨
      (a.goErr = false ∧ ∃ evs, tr = acc ++ evs ∧ ∀ ev ∈ evs, Minting ev)) (exchangeFinish req md scope spec) acc := by
  unfold exchangeFinish
  simp only [Prog.call, bind_op, bind_ret, pure_eq, Done]
  rintro (e | v)
  · left; exact ⟨rfl, _, mem_last, Or.inr ⟨_, rfl⟩⟩
  · simp only
    split
    · rename_i hv
      subst hv
      left; exact ⟨rfl, _, mem_last, Or.inl rfl⟩
    · rename_i hv
      simp only [Done]
      rintro (e | u)
      · left; exact ⟨rfl, _, mem_last, _, rfl⟩
      · right
        refine ⟨rfl, _, by simp only [List.append_assoc]; rfl, ?_⟩
        intro ev hev
        simp only [List.cons_append, List.nil_append, List.mem_cons, List.not_mem_nil, or_false] at hev
        rcases hev with rfl | rfl
        · exact ⟨v, hv, rfl⟩
        · rfl

theorem tokenExchange_verdict {E : Env} {req : TokenReq} {c cl : Client} {acc : List Ev} (hb : Begun E req c cl acc)
    {g : GrantExchange} (ht : req.grantType = g!"urn:ietf:params:oauth:grant-type:token-exchange")
    (hg : req.grant = some (.tokenExchange g)) :
    Done (Verdict E req) (tokenExchange E (some cl) req g) acc := by
  have hby := hb.by []
  rw [List.append_nil] at hby
  unfold tokenExchange
  simp only
  split; · rename_i h; exact refuse .issuer (Or.inl h) rfl
  split; · rename_i h; exact refuse .issuer (Or.inr (by simpa using h)) rfl
  split; · rename_i h; exact refuse .parameter (Or.inr (Or.inr ⟨g, hg, Or.inr (by rw [h]; decide)⟩)) rfl
  split; · rename_i h; exact refuse .parameter (Or.inr (Or.inr ⟨g, hg, Or.inl h⟩)) rfl
  split
  · rename_i h
    exact refuse .notRegistered ⟨cl, hby, by rw [ht]; exact not_contains h⟩ rfl
  split; · rename_i h; exact refuse .parameter (Or.inr (Or.inr ⟨g, hg, Or.inr h⟩)) rfl
  rename_i h1 h2 h3 h3' h4 h5'
  simp only [Prog.call, bind_op, bind_ret, pure_eq, Done]
  rintro ((_ | _) | (_ | st))
  · exact refuse .subjectInvalid ⟨g, hg, Or.inl mem_last⟩ rfl
  · exact refuseB (Or.inl rfl)
  · trivial
  · simp only
    split
    · rename_i h; exact refuse .subjectInvalid ⟨g, hg, Or.inr ⟨st, mem_last, Or.inl h⟩⟩ rfl
    split
    · rename_i h; exact refuse .subjectInvalid ⟨g, hg, Or.inr ⟨st, mem_last, Or.inr (Or.inl h)⟩⟩ rfl
    rename_i h5 h6
    cases hmd : st.metadata with
    | none => exact refuseB (Or.inr ⟨st, rfl, hmd⟩)
    | some md =>
      simp only [Done]
      intro now
      have hmem : ⟨.tkGetVal req.issuer g.subjectToken, .ok (some st)⟩ ∈
        acc ++ [⟨.tkGetVal req.issuer g.subjectToken, .ok (some st)⟩] ++ [⟨.now, now⟩] := List.mem_append_left _ mem_last
      have hclk : ∀ evs, firstClock (acc ++ [⟨.tkGetVal req.issuer g.subjectToken, .ok (some st)⟩] ++ [⟨.now, now⟩] ++ evs) = some now := by
        rw [hb.trace]; intro evs; rfl
      split
      · rename_i h
        exact refuse .subjectInvalid ⟨g, hg, Or.inr ⟨st, hmem, Or.inr (Or.inr ⟨md, now, hmd,
          by have := hclk []; rwa [List.append_nil] at this, h⟩)⟩⟩ rfl
      rename_i h7
      have fin : ∀ (aud : Str) (now2 : Nat) (jti : Str) (look : List Ev),
          (∀ id r, (⟨.clientsGet id, r⟩ : Ev) ∉ look) → (∀ i v r, (⟨.tkGetVal i v, r⟩ : Ev) ∉ look) →
          (∀ x, (⟨.resourcesGet x, .error .notFound⟩ : Ev) ∉ look) → (∀ ev ∈ look, ¬ Broken ev) →
          Done (Verdict E req) (exchangeFinish req md (req.scope.getD md.scope) (exchangedSpec cl st md (req.scope.getD md.scope) now2 jti aud))
            (acc ++ [⟨.tkGetVal req.issuer g.subjectToken, .ok (some st)⟩] ++ [⟨.now, now⟩] ++ look) := by
        intro aud now2 jti look hl1 hl2 hl3 hl4
        refine done_mono (exchangeFinish_ends md _ _ _) ?_
        rintro tr a (⟨rfl, hbr⟩ | ⟨ha, evs, rfl, hm⟩)
        · exact refuseBare hg .broken hbr (Or.inr rfl)
        · obtain ⟨hcl, rfl⟩ := hb
          have th : Through E req c cl ([⟨.tkGetVal req.issuer g.subjectToken, .ok (some st)⟩, ⟨.now, now⟩] ++ look)
            ([⟨.clientsGet c.clientId, .ok (some cl)⟩] ++ [⟨.tkGetVal req.issuer g.subjectToken, .ok (some st)⟩] ++
              [⟨.now, now⟩] ++ look ++ evs) := by
            refine ⟨hcl, ⟨evs, rfl, hm⟩, by simp [hl1], ?_⟩
            intro ev hev
            simp only [List.cons_append, List.nil_append, List.mem_cons] at hev
            rcases hev with rfl | rfl | hev
            · rintro (h' | ⟨t, h', h''⟩)
              · cases h'
              · cases h'
                rw [hmd] at h''; cases h''
            · exact id
            · exact hl4 ev hev
          refine th.none h1 h2 hg (ht ▸ .exchange g) (ht ▸ memFold_of h4) ?_ ha
          have hin : ∀ r, (⟨.tkGetVal req.issuer g.subjectToken, r⟩ : Ev) ∈ ([⟨.clientsGet c.clientId, .ok (some cl)⟩] ++ [⟨.tkGetVal req.issuer g.subjectToken, .ok (some st)⟩] ++ [⟨.now, now⟩] ++ look ++ evs) → r = .ok (some st) := by
            intro r hr'
            have := th.mem (by simp [Minting]) (by simp) hr'
            simp only [List.cons_append, List.nil_append, List.mem_cons] at this
            rcases this with h' | h' | h'
            · cases h'; rfl
            · cases h'
            · exact absurd h' (hl2 _ _ _)
          rintro k (rfl | rfl | rfl | rfl | rfl | rfl | rfl | rfl | rfl | rfl | rfl | rfl | rfl)
          · simp [HasReason, hg]
          · simp [HasReason, hg]
          · rintro (h' | h' | ⟨g', hg', h' | h'⟩)
            · rw [hg] at h'; cases h'
            · rw [hg] at h'; cases h'
            · cases hg.symm.trans hg'; exact h3' h'
            · cases hg.symm.trans hg'; exact h5' h'
          · simp [HasReason, hg]
          · simp [HasReason, hg]
          · simp [HasReason, hg]
          · simp [HasReason, hg]
          · simp [HasReason, hg]
          · simp [HasReason, hg]
          · simp [HasReason, hg]
          · simp [HasReason, hg]
          · rintro ⟨v', hg', h' | ⟨t, h', h''⟩⟩ <;> cases hg.symm.trans hg'
            · cases hin _ h'
            · cases hin _ h'
              rcases h'' with h'' | h'' | ⟨md', n, h'', h9, h10⟩
              · exact h5 h''
              · exact h6 h''
              · cases hmd.symm.trans h''
                have := hclk (look ++ evs)
                rw [← List.append_assoc] at this
                cases this.symm.trans h9
                exact h7 h10
          · rintro ⟨g', x, hg', -, h'⟩
            have := th.mem (by simp [Minting]) (by simp) h'
            simp only [List.cons_append, List.nil_append, List.mem_cons] at this
            rcases this with h' | h' | h'
            · cases h'
            · cases h'
            · exact hl3 _ h'
      unfold exchangeBuild
      simp only [Prog.call, bind_op, bind_ret, pure_eq, Done]
      intro now2 jti
      cases haud : req.audience with
      | none =>
        simp only
        have := fin [] now2 jti [⟨.now, now2⟩, ⟨.jti, jti⟩] (by simp) (by simp) (by simp)
          (by intro ev hev; simp only [List.mem_cons, List.not_mem_nil, or_false] at hev; rcases hev with rfl | rfl <;> exact id)
        simp only [List.append_assoc, List.cons_append, List.nil_append] at this ⊢
        exact this
      | some x =>
        simp only [Done]
        rintro ((_ | _) | (_ | res))
        · exact refuseBare hg .audienceUnknown ⟨g, x, hg, haud, mem_last⟩ (Or.inl rfl)
        · trivial
        · trivial
        · have := fin res.urn now2 jti [⟨.now, now2⟩, ⟨.jti, jti⟩, ⟨.resourcesGet x, .ok (some res)⟩] (by simp) (by simp)
            (by intro y hy; simp only [List.mem_cons, List.not_mem_nil, or_false] at hy; rcases hy with hy | hy | hy <;> cases hy)
            (by intro ev hev; simp only [List.mem_cons, List.not_mem_nil, or_false] at hev; rcases hev with rfl | rfl | rfl <;> exact id)
          simp only [List.append_assoc, List.cons_append, List.nil_append] at this ⊢
          exact this

/-! ### The service -/

theorem validate_cases {q : TokenReq} (h1 : ¬ q.issuer = []) {c : Client} (hc : q.client = some c) :
    (validateRequest (some q) = some .invalidGrant ∧ (q.grantType ∉ knownGrants ∨
      q.grantType ∈ knownGrants ∧ ∀ g, q.grant = some g → ¬ Fits q.grantType g)) ∨
    (validateRequest (some q) = none ∧ ∃ g, q.grant = some g ∧ Fits q.grantType g) := by
  simp only [validateRequest, h1, hc, if_false, Option.isNone_some, Bool.false_eq_true]
  by_cases t1 : q.grantType = grantAuthorizationCode
  · have hin : q.grantType ∈ knownGrants := by rw [t1]; decide
    rw [t1] at hin ⊢
    simp (decide := true) only [if_true, if_false]
    split
    · rename_i g hg; exact Or.inr ⟨rfl, _, hg, .code g⟩
    · rename_i hg
      refine Or.inl ⟨by first | rfl | trivial, Or.inr ⟨by first | exact hin | trivial, ?_⟩⟩
      intro g hg' hf
      rcases g with g | _ | g | g | g
      · exact hg g hg'
      · exact nomatch hf
      · exact nomatch hf
      · exact nomatch hf
      · exact nomatch hf
  by_cases t2 : q.grantType = grantClientCredentials
  · have hin : q.grantType ∈ knownGrants := by rw [t2]; decide
    rw [t2] at hin ⊢
    simp (decide := true) only [if_true, if_false]
    split
    · rename_i hg; exact Or.inr ⟨rfl, _, hg, .cc⟩
    · rename_i hg
      refine Or.inl ⟨by first | rfl | trivial, Or.inr ⟨by first | exact hin | trivial, ?_⟩⟩
      intro g hg' hf
      rcases g with g | _ | g | g | g
      · exact nomatch hf
      · exact hg hg'
      · exact nomatch hf
      · exact nomatch hf
      · exact nomatch hf
  by_cases t3 : q.grantType = grantDeviceCode
  · have hin : q.grantType ∈ knownGrants := by rw [t3]; decide
    rw [t3] at hin ⊢
    simp (decide := true) only [if_true, if_false]
    split
    · rename_i g hg; exact Or.inr ⟨rfl, _, hg, .device g⟩
    · rename_i hg
      refine Or.inl ⟨by first | rfl | trivial, Or.inr ⟨by first | exact hin | trivial, ?_⟩⟩
      intro g hg' hf
      rcases g with g | _ | g | g | g
      · exact nomatch hf
      · exact nomatch hf
      · exact hg g hg'
      · exact nomatch hf
      · exact nomatch hf
  by_cases t4 : q.grantType = grantRefreshToken
  · have hin : q.grantType ∈ knownGrants := by rw [t4]; decide
    rw [t4] at hin ⊢
    simp (decide := true) only [if_true, if_false]
    split
    · rename_i g hg; exact Or.inr ⟨rfl, _, hg, .refresh g⟩
    · rename_i hg
      refine Or.inl ⟨by first | rfl | trivial, Or.inr ⟨by first | exact hin | trivial, ?_⟩⟩
      intro g hg' hf
      rcases g with g | _ | g | g | g
      · exact nomatch hf
      · exact nomatch hf
      · exact nomatch hf
      · exact hg g hg'
      · exact nomatch hf
  by_cases t5 : q.grantType = grantTokenExchange
  · have hin : q.grantType ∈ knownGrants := by rw [t5]; decide
    rw [t5] at hin ⊢
    simp (decide := true) only [if_true, if_false]
    split
    · rename_i g hg; exact Or.inr ⟨rfl, _, hg, .exchange g⟩
    · rename_i hg
      refine Or.inl ⟨by first | rfl | trivial, Or.inr ⟨by first | exact hin | trivial, ?_⟩⟩
      intro g hg' hf
      rcases g with g | _ | g | g | g
      · exact nomatch hf
      · exact nomatch hf
      · exact nomatch hf
      · exact nomatch hf
      · exact hg g hg'
  simp only [t1, t2, t3, t4, t5, if_false]
  refine Or.inl ⟨by first | rfl | trivial, Or.inl ?_⟩
  simp only [knownGrants, List.mem_cons, List.not_mem_nil, or_false, not_or]
  exact ⟨t1, t2, t3, t4, t5⟩

theorem token_verdict (E : Env) (q : TokenReq) : Done (Verdict E q) (token E (some q)) [] := by
  unfold token
  by_cases h1 : q.issuer = []
  · simp only [validateRequest, h1, if_true]; exact refuse .issuer (Or.inl h1) rfl
  cases hc : q.client with
  | none => simp only [validateRequest, h1, hc, if_false, Option.isNone_none, if_true]; exact refuse .noClient hc rfl
  | some c =>
    rcases validate_cases h1 hc with ⟨hv, hn⟩ | ⟨hv, g, hg, hf⟩
    · rw [hv]
      simp only
      rcases hn with hn | hn
      · exact refuse .grantUnknown hn rfl
      · exact refuse .grantMissing hn rfl
    · rw [hv]
      simp only [hc, Prog.call, bind_op, bind_ret, pure_eq, Done]
      have beg : ∀ cl, Begun E q c cl ([] ++ [⟨.clientsGet c.clientId, .ok (some cl)⟩]) := fun cl => ⟨hc, rfl⟩
      have none' : ∀ acc, Done (Verdict E q) (dispatch E none q) (acc ++ [⟨.clientsGet c.clientId, .ok none⟩]) := by
        intro acc
        have : dispatch E none q = .ret (fail .serverError) := by
          generalize ht : q.grantType = t at hf
          cases hf <;> simp (decide := true) only [dispatch, ht, hg, if_true, if_false, authorizationCode, clientCredentials,
            deviceCode, refreshToken, tokenExchange]
        rw [this]
        exact refuseB (Or.inr rfl)
      rintro ((_ | _) | (_ | cl))
      · exact refuse .unknownClient ⟨c, hc, mem_last⟩ rfl
      · exact refuseB (Or.inl rfl)
      · exact none' []
      · simp only
        generalize ht : q.grantType = t at hf
        cases hf
        · simp (decide := true) only [dispatch, ht, hg, if_true, if_false]; exact authorizationCode_verdict (beg cl) ht hg
        · simp (decide := true) only [dispatch, ht, hg, if_true, if_false]; exact clientCredentials_verdict (beg cl) ht hg
        · simp (decide := true) only [dispatch, ht, hg, if_true, if_false]; exact deviceCode_verdict (beg cl) ht hg
        · simp (decide := true) only [dispatch, ht, hg, if_true, if_false]; exact refreshToken_verdict (beg cl) ht hg
        · simp (decide := true) only [dispatch, ht, hg, if_true, if_false]; exact tokenExchange_verdict (beg cl) ht hg

end Verif.TokenSvc
