import Verif.Proofs.Token
import Verif.Spec.Token

/-! Consequences of the exact descriptions of `Verif.Proofs.Token`. -/
namespace Verif.TokenSvc
open Verif.Prog Verif.Oidc Verif.StringArray Verif.Spec

variable {E : Env} {req : TokenReq} {client : Client} {a : TokenResp} {evs : List Ev}

theorem mintAT_clean {md : TokenMeta} {cnf : Option Cnf} {t : Token} {evs : List Ev}
    (h : MintAT client md cnf t evs) : ∀ ev ∈ evs, ¬ Failed ev := by
  obtain ⟨now, jti, v, _, _, rfl⟩ := h
  intro ev hev
  simp only [List.mem_cons, List.not_mem_nil, or_false] at hev
  rcases hev with rfl | rfl | rfl | rfl <;> simp [Failed]

theorem mintRT_clean {md : TokenMeta} {cnf : Option Cnf} {t : Token} {evs : List Ev}
    (h : MintRT client md cnf t evs) : ∀ ev ∈ evs, ¬ Failed ev := by
  obtain ⟨now, jti, v, _, _, rfl⟩ := h
  intro ev hev
  simp only [List.mem_cons, List.not_mem_nil, or_false] at hev
  rcases hev with rfl | rfl | rfl | rfl <;> simp [Failed]

theorem mintAT_facts {md : TokenMeta} {cnf : Option Cnf} {t : Token} {evs : List Ev}
    (h : MintAT client md cnf t evs) :
    t.value ≠ [] ∧ ⟨.tkCreate md.issuer t, .ok ()⟩ ∈ evs ∧ t.tokenType = .accessToken ∧
    Carries t md.issuer md.subject client.clientId md.scope md.audience cnf := by
  obtain ⟨now, jti, v, hv, rfl, rfl⟩ := h
  exact ⟨hv, by simp, rfl, ⟨_, rfl, rfl, rfl, rfl, rfl, rfl⟩, rfl, rfl⟩

theorem mintRT_facts {md : TokenMeta} {cnf : Option Cnf} {t : Token} {evs : List Ev}
    (h : MintRT client md cnf t evs) :
    t.value ≠ [] ∧ ⟨.tkCreate md.issuer t, .ok ()⟩ ∈ evs ∧ t.tokenType = .refreshToken ∧
    Carries t md.issuer md.subject client.clientId md.scope md.audience cnf := by
  obtain ⟨now, jti, v, hv, rfl, rfl⟩ := h
  exact ⟨hv, by simp, rfl, ⟨_, rfl, rfl, rfl, rfl, rfl, rfl⟩, rfl, rfl⟩

/-- Code grant: shape of the answer and of the returned tokens. -/
theorem codeTokens_facts {subject : Str} {ar : AuthzRequest}
    (h : CodeTokens client req subject ar a evs) :
    a.goErr = false ∧ a.error = none ∧ (∀ ev ∈ evs, ¬ Failed ev) ∧
    (a.accessToken.isSome = true ↔ HasWord g!"openid" ar.scope) ∧
    (a.refreshToken.isSome = true ↔ HasWord g!"openid" ar.scope ∧ HasWord g!"offline_access" ar.scope) ∧
    (∀ t, a.accessToken = some t → t.tokenType = .accessToken) ∧
    (∀ t, a.refreshToken = some t → t.tokenType = .refreshToken) ∧
    (∀ t, Returns a t → t.value ≠ [] ∧ ⟨.tkCreate req.issuer t, .ok ()⟩ ∈ evs ∧
      Carries t req.issuer subject client.clientId ar.scope ar.audience req.tokenConfirmation) := by
  rcases h with ⟨h1, rfl, rfl⟩ | ⟨h1, h2, at_, rfl, hm⟩ | ⟨h1, h2, at_, rt, e1, e2, rfl, rfl, hm, hm2⟩
  · simp [h1, Returns]
  · obtain ⟨f1, f2, f3, f4⟩ := mintAT_facts hm
    simp [h1, h2, Returns]
    exact ⟨mintAT_clean hm, f3, f1, f2, f4⟩
  · obtain ⟨f1, f2, f3, f4⟩ := mintAT_facts hm
    obtain ⟨g1, g2, g3, g4⟩ := mintRT_facts hm2
    refine ⟨rfl, rfl, ?_, by simp [h1], by simp [h1, h2], ?_, ?_, ?_⟩
    · intro ev hev
      rcases List.mem_append.1 hev with hev | hev
      · exact mintAT_clean hm ev hev
      · exact mintRT_clean hm2 ev hev
    · intro t ht; simp at ht; subst ht; exact f3
    · intro t ht; simp at ht; subst ht; exact g3
    · rintro t (ht | ht) <;> (simp at ht; subst ht)
      · exact ⟨f1, List.mem_append_left _ f2, f4⟩
      · exact ⟨g1, List.mem_append_right _ g2, g4⟩

theorem deviceTokens_facts {subject : Str} {scope : Option Str}
    (h : DeviceTokens client req subject scope a evs) :
    a.goErr = false ∧ a.error = none ∧ (∀ ev ∈ evs, ¬ Failed ev) ∧ a.accessToken.isSome = true ∧
    (a.refreshToken.isSome = true ↔ HasWord g!"offline_access" (scope.getD [])) ∧
    (∀ t, Returns a t → t.value ≠ [] ∧ ⟨.tkCreate req.issuer t, .ok ()⟩ ∈ evs ∧
      Carries t req.issuer subject client.clientId (scope.getD []) [] req.tokenConfirmation) := by
  rcases h with ⟨h2, at_, rfl, hm⟩ | ⟨h2, at_, rt, e1, e2, rfl, rfl, hm, hm2⟩
  · obtain ⟨f1, f2, f3, f4⟩ := mintAT_facts hm
    refine ⟨rfl, rfl, mintAT_clean hm, rfl, by simp [h2], ?_⟩
    rintro t (ht | ht) <;> simp at ht
    subst ht; exact ⟨f1, f2, f4⟩
  · obtain ⟨f1, f2, f3, f4⟩ := mintAT_facts hm
    obtain ⟨g1, g2, g3, g4⟩ := mintRT_facts hm2
    refine ⟨rfl, rfl, ?_, rfl, by simp [h2], ?_⟩
    · intro ev hev
      rcases List.mem_append.1 hev with hev | hev
      · exact mintAT_clean hm ev hev
      · exact mintRT_clean hm2 ev hev
    · rintro t (ht | ht) <;> (simp at ht; subst ht)
      · exact ⟨f1, List.mem_append_left _ f2, f4⟩
      · exact ⟨g1, List.mem_append_right _ g2, g4⟩

theorem refreshTokens_facts {rt : Token} {md : TokenMeta}
    (h : RefreshTokens client req rt md a evs) :
    a.goErr = false ∧ a.error = none ∧ (∀ ev ∈ evs, ¬ Failed ev) ∧
    (∃ at_, a.accessToken = some at_ ∧
      (a.refreshToken.isSome = true ↔ ∃ mda, at_.metadata = some mda ∧ md.expiresAt < mda.expiresAt)) ∧
    (a.refreshToken.isSome = true → ⟨.tkRevoke req.issuer rt.tokenId, .ok ()⟩ ∈ evs) ∧
    (∀ t, a.accessToken = some t → t.tokenType = .accessToken) ∧
    (∀ t, a.refreshToken = some t → t.tokenType = .refreshToken) ∧
    (∀ t, Returns a t → t.value ≠ [] ∧ ⟨.tkCreate md.issuer t, .ok ()⟩ ∈ evs ∧
      Carries t md.issuer md.subject client.clientId md.scope md.audience rt.confirmation) := by
  rcases h with ⟨at_, mda, hmd, hle, rfl, hm⟩ | ⟨at_, mda, new, e1, e2, hmd, hlt, rfl, hm, hm2, rfl⟩
  · obtain ⟨f1, f2, f3, f4⟩ := mintAT_facts hm
    refine ⟨rfl, rfl, mintAT_clean hm, ⟨at_, rfl, ?_⟩, by simp, ?_, by simp, ?_⟩
    · constructor
      · simp
      · rintro ⟨m, hm', hlt⟩; rw [hmd] at hm'; simp at hm'; subst hm'; omega
    · intro t ht; simp at ht; subst ht; exact f3
    · rintro t (ht | ht) <;> simp at ht
      subst ht; exact ⟨f1, f2, f4⟩
  · obtain ⟨f1, f2, f3, f4⟩ := mintAT_facts hm
    obtain ⟨g1, g2, g3, g4⟩ := mintRT_facts hm2
    refine ⟨rfl, rfl, ?_, ⟨at_, rfl, ?_⟩, by simp, ?_, ?_, ?_⟩
    · intro ev hev
      rcases List.mem_append.1 hev with hev | hev
      · rcases List.mem_append.1 hev with hev | hev
        · exact mintAT_clean hm ev hev
        · exact mintRT_clean hm2 ev hev
      · simp at hev; subst hev; simp [Failed]
    · simp; exact ⟨mda, hmd, hlt⟩
    · intro t ht; simp at ht; subst ht; exact f3
    · intro t ht; simp at ht; subst ht; exact g3
    · rintro t (ht | ht) <;> (simp at ht; subst ht)
      · exact ⟨f1, List.mem_append_left _ (List.mem_append_left _ f2), f4⟩
      · exact ⟨g1, List.mem_append_left _ (List.mem_append_right _ g2), g4⟩

theorem exchange_facts {g : GrantExchange} {st : Token} {md : TokenMeta} {now now2 : Nat} {jti v aud : Str}
    {t : Token} {look : List Ev} (h : ExchangeGrant client req g a evs st md now now2 jti v aud t look) :
    a.goErr = false ∧ a.error = none ∧ (∀ ev ∈ evs, ¬ Failed ev) ∧ a.accessToken = some t ∧ a.refreshToken = none ∧
    t.value ≠ [] ∧ ⟨.tkCreate req.issuer t, .ok ()⟩ ∈ evs ∧ t.tokenType = .accessToken ∧
    Carries t md.issuer md.subject client.clientId (req.scope.getD md.scope) aud st.confirmation := by
  have ha := h.answer
  refine ⟨by rw [ha], by rw [ha], ?_, by rw [ha], by rw [ha], ?_, ?_, ?_, ?_⟩
  · rw [h.trace]
    have hl : ∀ ev ∈ look, ¬ Failed ev := by
      rcases h.audience with ⟨_, _, e⟩ | ⟨u, res, _, e, _⟩ <;> rw [e] <;> simp [Failed]
    intro ev hev
    simp only [List.mem_append, List.mem_cons, List.not_mem_nil, or_false] at hev
    rcases hev with ((rfl | rfl | rfl | rfl) | hev) | (rfl | rfl)
    · simp [Failed]
    · simp [Failed]
    · simp [Failed]
    · simp [Failed]
    · exact hl ev hev
    · simp [Failed]
    · simp [Failed]
  · rw [h.token]; exact h.nonempty
  · rw [h.trace]; simp
  · rw [h.token]; rfl
  · rw [h.token]; exact ⟨⟨_, rfl, rfl, rfl, rfl, rfl, rfl⟩, rfl, rfl⟩

/-- Every successful answer is error free, and none of its calls failed. -/
theorem success_clean (h : Success E req client a evs) :
    a.goErr = false ∧ a.error = none ∧ ∀ ev ∈ evs, ¬ Failed ev := by
  cases h with
  | code g sess ar mint hg ht h =>
    have f := codeTokens_facts h.tokens
    refine ⟨f.1, f.2.1, ?_⟩
    rw [h.trace]; intro ev hev
    simp only [List.mem_cons] at hev
    rcases hev with rfl | rfl | hev
    · simp [Failed]
    · simp [Failed]
    · exact f.2.2.1 ev hev
  | cc at_ hg ht h =>
    rw [h.answer]
    exact ⟨rfl, rfl, mintAT_clean h.mint⟩
  | device dc ref session dreq subject now mint hg ht h =>
    have f := deviceTokens_facts h.tokens
    refine ⟨f.1, f.2.1, ?_⟩
    rw [h.trace]; intro ev hev
    simp only [List.mem_cons] at hev
    rcases hev with rfl | rfl | hev
    · simp [Failed]
    · simp [Failed]
    · exact f.2.2.1 ev hev
  | refresh v rt md now mint hg ht h =>
    have f := refreshTokens_facts h.tokens
    refine ⟨f.1, f.2.1, ?_⟩
    rw [h.trace]; intro ev hev
    simp only [List.mem_cons] at hev
    rcases hev with rfl | rfl | hev
    · simp [Failed]
    · simp [Failed]
    · exact f.2.2.1 ev hev
  | exchange g st md now now2 jti v aud t look hg ht h =>
    have f := exchange_facts h
    exact ⟨f.1, f.2.1, f.2.2.1⟩

/-- Either the endpoint refuses, or it succeeded through a grant. -/
theorem token_exec {req : Option TokenReq} {tr : List Ev} (h : Exec (token E req) tr (.done a)) :
    (Refused a ∧ (a.error.isSome = true ∨ ∃ q g, req = some q ∧ q.grant = some (.tokenExchange g))) ∨
    ∃ q c cl evs, req = some q ∧ q.client = some c ∧
      tr = ⟨.clientsGet c.clientId, .ok (some cl)⟩ :: evs ∧ Success E q cl a evs := by
  simpa using done_sound (token_done E req) h

theorem refused_no_token (h : Refused a) : ¬ ReturnsToken a := by
  obtain ⟨_, h1, h2⟩ := h
  simp [ReturnsToken, h1, h2]

theorem returnsToken_iff : ReturnsToken a ↔ ∃ t, Returns a t := by
  simp [ReturnsToken, Returns, Option.isSome_iff_exists, exists_or]

end Verif.TokenSvc
