import Verif.Model.ResourceServer
import Verif.Proofs.Http
import Verif.Proofs.HttpDemo
import Verif.Proofs.NoPanic
import Verif.Props.DPoP
import Verif.Props.Lib
import Verif.Props.Verifiable

/-! Properties of the resource server's middleware (C51). -/
namespace Verif.Props
open Verif.Spec Verif.Prog Verif.ResourceServer
open Verif.Jose (Out)
open Verif.ClientAuth (cut cut_some cut_append)

/-- The header is a scheme, one blank, and the token. -/
def Presents (header scheme tok : Str) : Prop :=
  ∃ s, header = s ++ 32 :: tok ∧ 32 ∉ s ∧ SameFold s scheme

/-- Who may do what: only the two listed clients on their own behalf, and only read
the time. -/
def Permitted (intent : Str) (m : TokenMeta) : Prop :=
  intent = g!"timestamp:read" ∧ (m.clientId = g!"t8p9duw4n2klximkv3kagaud796ul67g" ∨ m.clientId = g!"attestation-client") ∧
    m.subject = []

/-- A header scheme without the letters `s` and `k` has no spelling outside ASCII. -/
theorem scheme_lower {s scheme : Str} (h : SameFold s scheme) (ha : Go.Ascii scheme)
    (hk : ∀ b ∈ scheme, b ≠ 115 ∧ b ≠ 83 ∧ b ≠ 107 ∧ b ≠ 75) : Go.Ascii s ∧ Go.toLower s = Go.toLower scheme :=
  ⟨Go.fold_ascii h ha hk, Go.toLower_fold h (Go.fold_ascii h ha hk) ha⟩

theorem lookup_two {a b x : Str} {v : List Str} : (List.lookup x [(a, v), (b, v)]) = if x = a ∨ x = b then some v else none := by
  by_cases h : x = a
  · simp [List.lookup, h]
  · by_cases h2 : x = b
    · simp [List.lookup, h2]
      split <;> rfl
    · simp [List.lookup, h, h2]
      have e1 : (x == a) = false := by simpa using h
      have e2 : (x == b) = false := by simpa using h2
      simp [e1, e2]

theorem can_iff (id : Identity) (intent : Str) (m : TokenMeta) (hs : id.subject = m.subject) (hc : id.clientId = m.clientId) :
    can id intent = true ↔ Permitted intent m := by
  unfold can permissions Permitted
  by_cases hi : intent = g!"timestamp:read"
  · simp only [hi, if_true, lookup_two, hc, hs, true_and]
    by_cases h : m.clientId = g!"t8p9duw4n2klximkv3kagaud796ul67g" ∨ m.clientId = g!"attestation-client"
    · simp only [h, if_true, true_and]
      rw [contains_iff]
      simp [MemFold, SameFold, Go.runes_eq_nil]
    · simp only [h, if_false, false_and]
      simp
  · simp [hi]

theorem authorize_passed {intent : Str} {acr : List Str} {max : Nat} {o : Option Identity} {tr : List Ev}
    (h : Exec (authorize intent acr max o) tr (.done .passed)) :
    ∃ id, o = some id ∧ acrOk acr id = true ∧ can id intent = true ∧
      ∀ x, id.authTime = some x → 0 < max → ∃ now, (⟨.now, now⟩ : Ev) ∈ tr ∧ tooLongAgo now x max = false := by
  cases o with
  | none => cases h
  | some id =>
    refine ⟨id, rfl, ?_⟩
    unfold authorize at h
    obtain ⟨t1, t2, b, rfl, h1, h2⟩ := exec_bind_done h
    cases b with
    | false => simp only [Bool.false_eq_true, if_false] at h2; cases h2
    | true =>
      simp only [if_true] at h2
      by_cases ha : acrOk acr id = true
      · by_cases hc : can id intent = true
        · refine ⟨ha, hc, fun x hx hm => ?_⟩
          unfold ageOk at h1
          rw [hx] at h1
          simp only [gt_iff_lt, hm, if_true] at h1
          cases h1 with
          | step _ _ n _ _ h1 =>
            have e : ∀ {b : Bool} {tr : List Ev}, Exec (Prog.ret b) tr (.done true) → b = true := by
              intro b tr h
              cases h
              rfl
            have := e h1
            exact ⟨n, by simp, by simpa using this⟩
        · simp [ha, hc] at h2; cases h2
      · simp [ha] at h2; cases h2

/-- The identity of the token's metadata. -/
def idOf (m : TokenMeta) : Identity :=
  { subject := m.subject, clientId := m.clientId, authTime := m.authTime, acr := m.acr }

theorem lift_some {α : Type} {o : Out α} {tr : List Ev} {a : α} (h : Exec (lift o) tr (.done (some a))) :
    tr = [] ∧ o = .ok a := by
  cases o with
  | ok b => cases h; exact ⟨rfl, rfl⟩
  | err => cases h
  | panic => cases h

theorem lift_panic {α : Type} {o : Out α} {tr : List Ev} (h : Exec (lift o) tr .panicked) : o = .panic := by
  cases o with
  | ok b => cases h
  | err => cases h
  | panic => rfl

theorem identity_ok {t : Token} {id : Identity} (h : identity t = .ok id) : ∃ m, t.metadata = some m ∧ id = idOf m := by
  unfold identity at h
  split at h
  · cases h
  · rename_i m hm
    cases h
    exact ⟨m, hm, rfl⟩

theorem presents_of_cut {hdr scheme tok : Str} (h : (cut 32 hdr).2 = some tok)
    (he : Go.equalFold (cut 32 hdr).1 scheme = true) : Presents hdr scheme tok := by
  have hc : cut 32 hdr = ((cut 32 hdr).1, some tok) := by rw [← h]
  obtain ⟨h1, h2⟩ := cut_some hc
  exact ⟨_, h1, h2, (equalFold_iff _ _).1 he⟩

theorem cut_of_presents {hdr scheme tok : Str} (h : Presents hdr scheme tok) :
    (cut 32 hdr).2 = some tok ∧ Go.equalFold (cut 32 hdr).1 scheme = true := by
  obtain ⟨s, rfl, h1, h2⟩ := h
  rw [cut_append h1]
  exact ⟨rfl, (equalFold_iff _ _).2 h2⟩

theorem bearer_some {cli : Cli} {r : ResourceServer.Req} {tr : List Ev} {id : Identity}
    (h : Exec (authenticateWithBearer cli r) tr (.done (some id))) :
    ∃ a tok t m, Presents r.authorization g!"bearer" tok ∧ cli.assertion = some a ∧ cli.introspect a tok = .ok t ∧
      t.status = .active ∧ t.confirmation = none ∧ t.metadata = some m ∧ id = idOf m := by
  unfold authenticateWithBearer at h
  split at h
  · cases h
  rename_i he
  split at h
  · cases h
  rename_i a ha
  split at h
  · cases h
  rename_i tok ht
  obtain ⟨-, hb⟩ := lift_some h
  unfold bearerToken at hb
  split at hb
  · cases hb
  · cases hb
  rename_i t hi
  split at hb
  · cases hb
  rename_i hs
  split at hb
  · cases hb
  rename_i hc
  obtain ⟨m, hm, rfl⟩ := identity_ok hb
  exact ⟨a, tok, t, m, presents_of_cut ht (by simpa using he), ha, hi, by simpa using hs, by simpa using hc, hm, rfl⟩

theorem dpop_some {E : Env} {cli : Cli} {r : ResourceServer.Req} {tr : List Ev} {id : Identity}
    (h : Exec (authenticateWithDPoP E cli r) tr (.done (some id))) :
    ∃ a tok t m c, Presents r.authorization g!"dpop" tok ∧ cli.assertion = some a ∧ cli.introspect a tok = .ok t ∧
      t.status = .active ∧ t.confirmation = some c ∧ t.metadata = some m ∧ id = idOf m ∧
      Exec (DPoP.verify E { htm := r.method, htu := r.url, proof := r.dpop, tokenValue := some tok }) tr (.done (some c.jkt)) := by
  unfold authenticateWithDPoP at h
  split at h
  · cases h
  rename_i he
  split at h
  · cases h
  rename_i tok ht
  obtain ⟨t1, t2, o, rfl, h1, h2⟩ := exec_bind_done h
  cases o with
  | none => cases h2
  | some thumb =>
    simp only at h2
    split at h2
    · cases h2
    rename_i a ha
    obtain ⟨rfl, hb⟩ := lift_some h2
    unfold dpopToken at hb
    split at hb
    · cases hb
    · cases hb
    rename_i t hi
    split at hb
    · cases hb
    rename_i hs
    split at hb
    · cases hb
    rename_i c hc
    split at hb
    · rename_i hcmp
      obtain ⟨m, hm, rfl⟩ := identity_ok hb
      rw [(C45_secureCompare _ _).1 hcmp] at h1
      exact ⟨a, tok, t, m, c, presents_of_cut ht (by simpa using he), ha, hi, by simpa using hs, hc, hm, rfl, by simpa using h1⟩
    · cases hb

/-- 64-bit arithmetic does not wrap for realistic times. -/
theorem tooLongAgo_iff {now x max : Nat} (hn : seconds now < 2 ^ 64) (hx : x + max < 2 ^ 64) :
    tooLongAgo now x max = false ↔ x ≤ seconds now ∧ seconds now ≤ x + max := by
  unfold tooLongAgo
  have e : DPoP.unix now = seconds now := rfl
  rw [e]
  simp only [decide_eq_false_iff_not, UInt64.not_lt, UInt64.le_iff_toNat_le, UInt64.toNat_sub, UInt64.toNat_ofNat']
  rw [Nat.mod_eq_of_lt hn, Nat.mod_eq_of_lt (show x < 2 ^ 64 by omega), Nat.mod_eq_of_lt (show max < 2 ^ 64 by omega)]
  omega

/-- **C51.** The middleware hands a request on only if the header presents a token
which, when introspected, is active; used as a bearer token it is not bound to a key,
used with DPoP it is bound to the key of an accepted proof for the request's method
and URL and this very token. The reported identity may do what is intended; a
reported authentication time or level satisfies what is asked for. -/
theorem C51_accepted (E : Env) (cli : Cli) (intent : Str) (acr : List Str) (max : Nat) (r : ResourceServer.Req) (tr : List Ev)
    (h : Exec (authorizer E cli intent acr max r) tr (.done .passed)) :
    ∃ a tok t m, cli.assertion = some a ∧ cli.introspect a tok = .ok t ∧ t.status = .active ∧ t.metadata = some m ∧
      Permitted intent m ∧ (acr ≠ [] → ∀ x, m.acr = some x → MemFold x acr) ∧
      (0 < max → ∀ x, m.authTime = some x → x + max < 2 ^ 64 → ∃ now, (⟨.now, now⟩ : Ev) ∈ tr ∧
        (seconds now < 2 ^ 64 → x ≤ seconds now ∧ seconds now ≤ x + max)) ∧
      ((Presents r.authorization g!"bearer" tok ∧ t.confirmation = none) ∨
       (Presents r.authorization g!"dpop" tok ∧ ∃ c t1 t2, t.confirmation = some c ∧ tr = t1 ++ t2 ∧
          Exec (DPoP.verify E ⟨r.method, r.url, r.dpop, some tok, none⟩) t1 (.done (some c.jkt)))) := by
  have rest : ∀ {t1 t2 : List Ev} {o : Option Identity}, tr = t1 ++ t2 →
      Exec (authorize intent acr max o) t2 (.done .passed) → ∃ id, o = some id ∧ ∀ m, id = idOf m →
        Permitted intent m ∧ (acr ≠ [] → ∀ x, m.acr = some x → MemFold x acr) ∧
        (0 < max → ∀ x, m.authTime = some x → x + max < 2 ^ 64 → ∃ now, (⟨.now, now⟩ : Ev) ∈ tr ∧
          (seconds now < 2 ^ 64 → x ≤ seconds now ∧ seconds now ≤ x + max)) := by
    intro t1 t2 o ht h2
    obtain ⟨id, ho, ha, hc, hage⟩ := authorize_passed h2
    refine ⟨id, ho, fun m hm => ?_⟩
    subst hm
    refine ⟨(can_iff _ _ m rfl rfl).1 hc, ?_, ?_⟩
    · intro hne x hx
      unfold acrOk at ha
      have : (idOf m).acr = some x := hx
      rw [this] at ha
      simp only at ha
      rw [if_pos (List.length_pos_iff.2 hne)] at ha
      exact (contains_iff _ _).1 ha
    · intro hm x hx hb
      obtain ⟨now, hnow, hl⟩ := hage x hx hm
      exact ⟨now, by simp [ht, hnow], fun hn => (tooLongAgo_iff hn hb).1 hl⟩
  unfold authorizer at h
  split at h
  · cases h
  split at h
  · obtain ⟨t1, t2, o, ht, h1, h2⟩ := exec_bind_done h
    obtain ⟨id, rfl, hr⟩ := rest ht h2
    obtain ⟨a, tok, t, m, hp, ha, hi, hs, hc, hm, hid⟩ := bearer_some h1
    obtain ⟨r1, r2, r3⟩ := hr m hid
    exact ⟨a, tok, t, m, ha, hi, hs, hm, r1, r2, r3, Or.inl ⟨hp, hc⟩⟩
  split at h
  · obtain ⟨t1, t2, o, ht, h1, h2⟩ := exec_bind_done h
    obtain ⟨id, rfl, hr⟩ := rest ht h2
    obtain ⟨a, tok, t, m, c, hp, ha, hi, hs, hc, hm, hid, hv⟩ := dpop_some h1
    obtain ⟨r1, r2, r3⟩ := hr m hid
    exact ⟨a, tok, t, m, ha, hi, hs, hm, r1, r2, r3, Or.inr ⟨hp, c, t1, t2, hc, ht, hv⟩⟩
  · cases h

/-- **C51** (DPoP). What lets a DPoP request through was signed by the key the token
is bound to, for this method, URL and token, within 15 seconds of the clock. -/
theorem C51_proof_of_possession (E : Env) (cli : Cli) (intent : Str) (acr : List Str) (max : Nat) (r : ResourceServer.Req) (tr : List Ev)
    (h : Exec (authorizer E cli intent acr max r) tr (.done .passed)) (tok : Str)
    (hp : Presents r.authorization g!"dpop" tok) :
    ∃ a t c p key claims now, cli.assertion = some a ∧ cli.introspect a tok = .ok t ∧ t.confirmation = some c ∧
      E.parseProof r.dpop = some p ∧ p.jwk = some key ∧ p.claims key = some claims ∧ E.thumbprint key = some c.jkt ∧
      claims.htm = r.method ∧ E.urlString r.url = some claims.htu ∧ claims.ath = some (Go.b64 (E.sha256 tok)) ∧
      (⟨.now, now⟩ : Ev) ∈ tr ∧ claims.iat ≤ seconds now + 15 := by
  obtain ⟨a, tok', t, m, ha, hi, -, -, -, -, -, hd⟩ := C51_accepted E cli intent acr max r tr h
  rcases hd with ⟨hb, -⟩ | ⟨hp', c, t1, t2, hc, ht, hv⟩
  · exfalso
    have e1 := (cut_of_presents hb).2
    have e2 := (cut_of_presents hp).2
    rw [equalFold_iff] at e1 e2
    have : SameFold g!"bearer" g!"dpop" := e1.symm.trans e2
    revert this
    decide
  · have e1 := (cut_of_presents hp).1
    rw [(cut_of_presents hp').1] at e1
    cases e1
    obtain ⟨p, key, claims, n1, n2, q1, -, q3, q4, q5, q6, q7, -, q9, -, q11, q12⟩ := C38_accepted_proof E _ _ _ hv
    exact ⟨a, t, c, p, key, claims, n2, ha, hi, hc, q1, q3, q4, q5, q6, q7, (q12 tok rfl).1, by simp [ht, q9], q11⟩

/-- **C51** (completeness). An active unbound token of a permitted identity, reported
with no authentication time or a recent one and no level or a right one, is let
through whenever the middleware gets to the end, and it does not crash. -/
theorem C51_bearer_passes (E : Env) (cli : Cli) (intent : Str) (acr : List Str) (max : Nat) (r : ResourceServer.Req) (tr : List Ev)
    (o : Outcome Ans) (h : Exec (authorizer E cli intent acr max r) tr o) (a tok : Str) (t : Token) (m : TokenMeta)
    (hp : Presents r.authorization g!"bearer" tok) (ha : cli.assertion = some a) (hi : cli.introspect a tok = .ok t)
    (hs : t.status = .active) (hc : t.confirmation = none) (hm : t.metadata = some m) (hperm : Permitted intent m)
    (hacr : ∀ x, m.acr = some x → acr = [] ∨ MemFold x acr)
    (hage : ∀ x, m.authTime = some x → x + max < 2 ^ 64 ∧ ∀ now, (⟨.now, now⟩ : Ev) ∈ tr → seconds now < 2 ^ 64 ∧
      x ≤ seconds now ∧ seconds now ≤ x + max) : o = .done .passed ∨ o = .stopped := by
  obtain ⟨hcut, heq⟩ := cut_of_presents hp
  have hauth : authenticateWithBearer cli r = .ret (some (idOf m)) := by
    unfold authenticateWithBearer
    rw [heq, hcut]
    simp [ha, bearerToken, hi, hs, hc, identity, hm, lift, idOf]
  obtain ⟨s, hhdr, -, hs2⟩ := hp
  have hpre : hasPrefix (Go.toLower r.authorization) g!"bearer" = true := by
    unfold hasPrefix
    rw [List.isPrefixOf_iff_prefix, hhdr]
    refine ⟨Go.toLower (32 :: tok), ?_⟩
    rw [Go.toLower_append (by decide), (scheme_lower hs2 (by decide) (by decide)).2]
    rfl
  have hne : r.authorization ≠ [] := by rw [hhdr]; simp
  unfold authorizer at h
  rw [if_neg hne, if_pos hpre, hauth, bind_ret] at h
  have hacrOk : acrOk acr (idOf m) = true := by
    unfold acrOk idOf
    cases hx : m.acr with
    | none => rfl
    | some x =>
      simp only
      split
      · rcases hacr x hx with rfl | h'
        · rename_i hl; simp at hl
        · exact (contains_iff _ _).2 h'
      · rfl
  have hcan : can (idOf m) intent = true := (can_iff _ _ m rfl rfl).2 hperm
  have hend : ∀ {tr' : List Ev} {o' : Outcome Ans}, Exec (Prog.ret Ans.passed) tr' o' → o' = .done .passed ∨ o' = .stopped := by
    intro tr' o' h'
    cases h' with
    | ret => exact Or.inl rfl
    | stop => exact Or.inr rfl
  unfold authorize ageOk at h
  cases hx : m.authTime with
  | none =>
    have : (idOf m).authTime = none := hx
    simp only [this, bind_ret, if_true, hacrOk, hcan, Bool.not_true, Bool.false_eq_true, if_false] at h
    exact hend h
  | some x =>
    have : (idOf m).authTime = some x := hx
    simp only [this] at h
    split at h
    · simp only [Prog.call, bind_op, bind_ret, pure_eq] at h
      cases h with
      | stop => exact Or.inr rfl
      | step _ _ n tr _ h =>
        obtain ⟨hb, hn⟩ := hage x hx
        obtain ⟨n1, n2, n3⟩ := hn n (by simp)
        have := (tooLongAgo_iff n1 hb).2 ⟨n2, n3⟩
        simp only [this, Bool.not_false, if_true, hacrOk, hcan, Bool.not_true, Bool.false_eq_true, if_false] at h
        exact hend h
    · simp only [bind_ret, if_true, hacrOk, hcan, Bool.not_true, Bool.false_eq_true, if_false] at h
      exact hend h

/-- **C51** (partial: crashes). The middleware crashes only if the header has no blank
or the client crashes or reports an active token without metadata. Missing: the
first case does occur, see `C51_violated_crash`. -/
theorem C51_crash_partial (E : Env) (cli : Cli) (intent : Str) (acr : List Str) (max : Nat) (r : ResourceServer.Req)
    (tr : List Ev) (h : Exec (authorizer E cli intent acr max r) tr .panicked) :
    32 ∉ r.authorization ∨ ∃ a tok, cli.assertion = some a ∧ (cli.introspect a tok = .panic ∨
      ∃ t, cli.introspect a tok = .ok t ∧ t.status = .active ∧ t.metadata = none) := by
  have hauth : ∀ {o : Option Identity} {tr : List Ev}, ¬ Exec (authorize intent acr max o) tr .panicked := by
    intro o tr
    refine noPanic_sound (W := fun _ => True) ?_ (by simp)
    unfold authorize
    cases o with
    | none => trivial
    | some id =>
      refine noPanic_bind ?_ ?_
      · unfold ageOk
        split
        · trivial
        · split
          · intro _ _; trivial
          · trivial
      · intro b
        cases b
        · trivial
        · simp only [if_true]
          split
          · trivial
          · split <;> trivial
  have hident : ∀ {t : Token}, identity t = .panic → t.metadata = none := by
    intro t ht
    unfold identity at ht
    split at ht
    · assumption
    · cases ht
  have hcut : (cut 32 r.authorization).2 = none → 32 ∉ r.authorization := by
    intro hn hm
    obtain ⟨x, y, hxy, hx⟩ := List.eq_append_cons_of_mem hm
    rw [hxy, cut_append hx] at hn
    cases hn
  unfold authorizer at h
  split at h
  · cases h
  split at h
  · rcases Http.exec_bind h with ⟨t1, t2, a, -, -, h2⟩ | ⟨-, h1⟩ | ⟨h0, -⟩
    · exact absurd h2 hauth
    · unfold authenticateWithBearer at h1
      split at h1
      · cases h1
      split at h1
      · cases h1
      rename_i a ha
      split at h1
      · exact Or.inl (hcut ‹_›)
      rename_i tok ht
      have hb := lift_panic h1
      unfold bearerToken at hb
      split at hb
      · exact Or.inr ⟨a, tok, ha, Or.inl ‹_›⟩
      · cases hb
      rename_i t hi
      split at hb
      · cases hb
      rename_i hs
      split at hb
      · cases hb
      exact Or.inr ⟨a, tok, ha, Or.inr ⟨t, hi, by simpa using hs, hident hb⟩⟩
    · cases h0
  split at h
  · rcases Http.exec_bind h with ⟨t1, t2, a, -, -, h2⟩ | ⟨-, h1⟩ | ⟨h0, -⟩
    · exact absurd h2 hauth
    · unfold authenticateWithDPoP at h1
      split at h1
      · cases h1
      split at h1
      · exact Or.inl (hcut ‹_›)
      rename_i tok ht
      rcases Http.exec_bind h1 with ⟨t1, t2, o, -, -, h2⟩ | ⟨-, h2⟩ | ⟨h0, -⟩
      · cases o with
        | none => cases h2
        | some thumb =>
          simp only at h2
          split at h2
          · cases h2
          rename_i a ha
          have hb := lift_panic h2
          unfold dpopToken at hb
          split at hb
          · exact Or.inr ⟨a, tok, ha, Or.inl ‹_›⟩
          · cases hb
          rename_i t hi
          split at hb
          · cases hb
          rename_i hs
          split at hb
          · cases hb
          split at hb
          · exact Or.inr ⟨a, tok, ha, Or.inr ⟨t, hi, by simpa using hs, hident hb⟩⟩
          · cases hb
      · exact absurd h2 (noPanic_sound (noPanic_dpop (W := fun _ => True) E _) (by simp))
      · cases h0
    · cases h0
  · cases h

/-- **C51** (negation). A header that is only the name of a scheme, without a token,
crashes the middleware, whatever the client answers: anyone can send it. -/
theorem C51_violated_crash (E : Env) (cli : Cli) (intent : Str) (acr : List Str) (max : Nat) (r : ResourceServer.Req)
    (h : (SameFold r.authorization g!"bearer" ∧ cli.assertion ≠ none) ∨ SameFold r.authorization g!"dpop") :
    Exec (authorizer E cli intent acr max r) [] .panicked := by
  have hno : ∀ scheme : Str, SameFold r.authorization scheme → Go.Ascii scheme →
      (∀ b ∈ scheme, b ≠ 115 ∧ b ≠ 83 ∧ b ≠ 107 ∧ b ≠ 75) → (32 : Nat) ∉ (Go.runes scheme).map Go.foldRune →
      32 ∉ r.authorization := by
    intro scheme hs ha hk hn hm
    refine hn ?_
    rw [← (show (Go.runes r.authorization).map Go.foldRune = (Go.runes scheme).map Go.foldRune from hs),
      Go.runes_ascii (scheme_lower hs ha hk).1, List.map_map]
    exact List.mem_map.2 ⟨32, hm, rfl⟩
  have hpre : ∀ scheme : Str, Go.toLower scheme = scheme → Go.Ascii scheme →
      (∀ b ∈ scheme, b ≠ 115 ∧ b ≠ 83 ∧ b ≠ 107 ∧ b ≠ 75) → SameFold r.authorization scheme →
      hasPrefix (Go.toLower r.authorization) scheme = true := by
    intro scheme hl ha hk hs
    rw [(scheme_lower hs ha hk).2, hl]
    unfold hasPrefix
    rw [List.isPrefixOf_iff_prefix]
    exact List.prefix_rfl
  have hne : ∀ scheme : Str, scheme ≠ [] → SameFold r.authorization scheme → r.authorization ≠ [] := by
    intro scheme hs hf he
    rw [he] at hf
    unfold SameFold at hf
    exact hs (Go.runes_eq_nil.1 (by simpa using hf.symm))
  rcases h with ⟨hs, ha⟩ | hs
  · have hc := cut_none (hno _ hs (by decide) (by decide) (by decide))
    unfold authorizer
    rw [if_neg (hne _ (by decide) hs), if_pos (hpre _ (by decide) (by decide) (by decide) hs)]
    unfold authenticateWithBearer
    rw [hc]
    simp only [(equalFold_iff _ _).2 hs, not_true_eq_false, if_false]
    cases he : cli.assertion with
    | none => exact absurd he ha
    | some a => exact .panic
  · have hc := cut_none (hno _ hs (by decide) (by decide) (by decide))
    have hnb : ¬ hasPrefix (Go.toLower r.authorization) g!"bearer" = true := by
      rw [(scheme_lower hs (by decide) (by decide)).2]
      decide
    unfold authorizer
    rw [if_neg (hne _ (by decide) hs), if_neg hnb, if_pos (hpre _ (by decide) (by decide) (by decide) hs)]
    unfold authenticateWithDPoP
    rw [hc]
    simp only [(equalFold_iff _ _).2 hs, not_true_eq_false, if_false]
    exact .panic

/-- **C51** (the shipped pair). With the client library's own introspection the
resource server never lets any request through, and it crashes on every bearer
token the authorization server answers for. -/
theorem C51_shipped_never_passes (E : Env) (assertion : Option Str) (url : Bool) (answer : Str → Str → Option Reply)
    (intent : Str) (acr : List Str) (max : Nat) (r : ResourceServer.Req) :
    (∀ tr, ¬ Exec (authorizer E (httpClient assertion url answer) intent acr max r) tr (.done .passed)) ∧
    ∀ a tok, assertion = some a → url = true → Presents r.authorization g!"bearer" tok →
      answer a tok = some ⟨200, true⟩ →
      Exec (authorizer E (httpClient assertion url answer) intent acr max r) [] .panicked := by
  constructor
  · intro tr h
    obtain ⟨a, tok, t, m, -, hi, -⟩ := C51_accepted _ _ _ _ _ _ _ h
    simp only [httpClient, httpIntrospect] at hi
    split at hi
    · cases hi
    split at hi
    · cases hi
    split at hi
    · cases hi
    split at hi <;> cases hi
  · intro a tok ha hu hp hans
    obtain ⟨hcut, heq⟩ := cut_of_presents hp
    obtain ⟨s, hhdr, -, hs2⟩ := hp
    have hpre : hasPrefix (Go.toLower r.authorization) g!"bearer" = true := by
      unfold hasPrefix
      rw [List.isPrefixOf_iff_prefix, hhdr]
      refine ⟨Go.toLower (32 :: tok), ?_⟩
      rw [Go.toLower_append (by decide), (scheme_lower hs2 (by decide) (by decide)).2]
      rfl
    unfold authorizer
    rw [if_neg (by rw [hhdr]; simp), if_pos hpre]
    unfold authenticateWithBearer
    simp only [heq, not_true_eq_false, if_false, hcut, httpClient, ha]
    simp only [bearerToken, httpIntrospect, hu, hans, not_true_eq_false, if_false, ne_eq, if_true, lift]
    exact .panic

/-! ### Examples -/

/-- A client that reports one active token. -/
def demoCli (t : Token) : Cli := ⟨some g!"assertion", fun _ tok => if tok = g!"tok" then .ok t else .err⟩

def demoToken : Token :=
  { status := .active, metadata := some { clientId := g!"attestation-client" } }

/-- A user who authenticated at 90 s with level "loa1". -/
def demoStep : Token :=
  { status := .active
    metadata := some { clientId := g!"attestation-client", acr := some g!"loa1", authTime := some 90 } }

/-- Bearer requests that get through (C51_accepted, C51_bearer_passes). -/
example : (∃ tr, Exec (authorizer Demo.env (demoCli demoToken) g!"timestamp:read" [g!"loa1"] 30
      { method := g!"GET", target := { host := g!"rs", path := g!"/" }, authorization := g!"BEARER tok" }) tr (.done .passed)) ∧
    (∃ tr, Exec (authorizer Demo.env (demoCli demoStep) g!"timestamp:read" [g!"LOA1"] 30
      { method := g!"GET", target := { host := g!"rs", path := g!"/" }, authorization := g!"Bearer tok" }) tr (.done .passed)) ∧
    Presents g!"BEARER tok" g!"bearer" g!"tok" := by
  refine ⟨?_, ?_, g!"BEARER", by decide, by decide, by decide⟩
  · obtain ⟨tr, a, h, h2⟩ := oracle_ex Demo.answers (authorizer Demo.env (demoCli demoToken) g!"timestamp:read" [g!"loa1"] 30
      { method := g!"GET", target := { host := g!"rs", path := g!"/" }, authorization := g!"BEARER tok" }) (fun a => a = .passed) (by decide +kernel)
    exact ⟨tr, h2 ▸ h⟩
  · obtain ⟨tr, a, h, h2⟩ := oracle_ex Demo.answers (authorizer Demo.env (demoCli demoStep) g!"timestamp:read" [g!"LOA1"] 30
      { method := g!"GET", target := { host := g!"rs", path := g!"/" }, authorization := g!"Bearer tok" }) (fun a => a = .passed) (by decide +kernel)
    exact ⟨tr, h2 ▸ h⟩

/-- Proofs that name the access token "tok". -/
def demoAth : Env :=
  { Demo.env with
    parseProof := fun s => some ⟨some g!"dpop+jwt", some g!"k", fun _ => some { jti := s, htm := g!"GET", htu := g!"https://rs/", iat := 100
                                                                                ath := some (Go.b64 (Demo.env.sha256 g!"tok")) }⟩ }

/-- A DPoP request that gets through (C51_proof_of_possession). -/
example : ∃ tr, Exec (authorizer demoAth (demoCli { demoToken with confirmation := some ⟨g!"k"⟩ }) g!"timestamp:read" [] 30
      { method := g!"GET", target := { host := g!"rs", path := g!"/" }, authorization := g!"DPoP tok", dpop := g!"p" }) tr (.done .passed) ∧
    Presents g!"DPoP tok" g!"dpop" g!"tok" := by
  obtain ⟨tr, a, h, h2⟩ := oracle_ex Demo.answers (authorizer demoAth (demoCli { demoToken with confirmation := some ⟨g!"k"⟩ })
    g!"timestamp:read" [] 30 { method := g!"GET", target := { host := g!"rs", path := g!"/" }, authorization := g!"DPoP tok", dpop := g!"p" })
    (fun a => a = .passed) (by decide +kernel)
  exact ⟨tr, h2 ▸ h, g!"DPoP", by decide, by decide, by decide⟩

/-- A header that crashes a working server (C51_violated_crash, C51_crash_partial). -/
example : SameFold g!"Bearer" g!"bearer" ∧ (demoCli demoToken).assertion ≠ none := by decide

/-- **C51** (limit). The demanded authentication age and level are not enforced for a
token of which introspection reports neither. -/
theorem C51_stepup_needs_report : ∃ (E : Env) (cli : Cli) (a tok : Str) (t : Token) (m : TokenMeta) (r : ResourceServer.Req)
    (tr : List Ev), Presents r.authorization g!"bearer" tok ∧ cli.introspect a tok = .ok t ∧ t.metadata = some m ∧
    m.authTime = none ∧ m.acr = none ∧
    Exec (authorizer E cli g!"timestamp:read" [g!"urn:solid:loa:1fa:any"] 30 r) tr (.done .passed) := by
  obtain ⟨tr, a, h, h2⟩ := oracle_ex Demo.answers (authorizer Demo.env (demoCli demoToken) g!"timestamp:read"
    [g!"urn:solid:loa:1fa:any"] 30 { method := g!"GET", target := { host := g!"rs", path := g!"/" }, authorization := g!"Bearer tok" })
    (fun a => a = .passed) (by decide +kernel)
  exact ⟨_, _, g!"assertion", g!"tok", demoToken, _, _, tr, ⟨g!"Bearer", by decide, by decide, by decide⟩, rfl, rfl,
    rfl, rfl, h2 ▸ h⟩

end Verif.Props
