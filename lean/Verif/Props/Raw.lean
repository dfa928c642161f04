import Verif.Proofs.Raw
import Verif.Props.Client

/-! What the endpoints read of the texts that are sent. -/
set_option linter.unusedSimpArgs false
namespace Verif.Props
open Verif.Prog Verif.Spec Verif.Http Verif.Raw Verif.Sign Verif.Client

/-- **C97** (unambiguous). A text stands for one list of parameters at most. -/
theorem C97_unique (t : Str) (l l' : List (Str × Str)) (h : Form t l) (h' : Form t l') : l = l' :=
  (parseQuery_form h).symm.trans (parseQuery_form h')

/-- **C97** (the client library). What `url.Values.Encode` writes stands for the parameters, each with its value. -/
theorem C97_written (l : List (Str × Str)) : ∃ l', Form (Url.encode l) l' ∧ ∀ k, l'.lookup k = l.lookup k :=
  ⟨_, form_encode l, fun k => Url.first_sortKeys l k⟩

/-- A field value that says the body is a form: the type in any letter case, parameters may follow. -/
def SaysForm (v : Str) : Prop :=
  ∃ ty rest, v = ty ++ rest ∧ ty.map asciiLower = g!"application/x-www-form-urlencoded" ∧ (rest = [] ∨ rest.head? = some 59)

theorem mediaType_form {v : Str} (h : SaysForm v) : mediaType v = g!"application/x-www-form-urlencoded" := by
  obtain ⟨ty, rest, rfl, hty, hr⟩ := h
  have hk : ∀ b : UInt8, Url.lowerByte b = asciiLower b := by
    apply Url.bytes
    decide +kernel
  have h59 : (59 : UInt8) ∉ ty := fun hm => by
    have : asciiLower 59 ∈ g!"application/x-www-form-urlencoded" := by
      rw [← hty]; exact List.mem_map_of_mem hm
    revert this; decide +kernel
  rw [mediaType, (Url.takeWhile_ne_append (c := 59) h59 hr).1, funext hk, hty]
  decide +kernel

/-- **C97** (partial). A form that is posted is read as what it stands for, whatever program encoded it, when no parameter
occurs twice: every parameter has its value, and what is not in the body is looked for in the query. Missing: repeated
parameters and malformed ones are not refused (`C97_repeated_violated`, `C97_malformed_violated`). -/
theorem C97_reads_partial (w : Raw) (l q : List (Str × Str)) (hm : w.method = g!"POST") (hc : SaysForm w.contentType)
    (hl : Form w.body l) (hq : Form w.rawQuery q) (ol : Once l) (oq : Once q) :
    (∀ k v, (k, v) ∈ l → w.req.postValue k = v ∧ w.req.formValue k = v) ∧
    (∀ k, k ∉ l.map Prod.fst → w.req.postValue k = [] ∧ w.req.formValue k = w.req.get k) ∧
    (∀ k v, (k, v) ∈ q → w.req.get k = v) ∧ (∀ k, k ∉ q.map Prod.fst → w.req.get k = []) := by
  have hpost : w.postForm = l := by
    rw [Raw.postForm, if_pos ⟨Or.inl hm, mediaType_form hc⟩, parseQuery_form hl]
  have hsome : ∀ (m : List (Str × Str)) k v, Once m → (k, v) ∈ m → Url.first m k = some v := by
    intro m k v hm hmem
    induction m with
    | nil => cases hmem
    | cons x m ih =>
      simp only [Once, List.map_cons, List.nodup_cons] at hm
      rcases List.mem_cons.1 hmem with rfl | hmem
      · simp [Url.first, List.lookup]
      · have hne : (k == x.1) = false := by
          simp only [beq_eq_false_iff_ne]
          rintro rfl
          exact hm.1 (List.mem_map.2 ⟨_, hmem, rfl⟩)
        have := ih hm.2 hmem
        simpa [Url.first, List.lookup, hne] using this
  have hnone : ∀ (m : List (Str × Str)) k, k ∉ m.map Prod.fst → Url.first m k = none := by
    intro m k hk
    induction m with
    | nil => rfl
    | cons x m ih =>
      simp only [List.map_cons, List.mem_cons, not_or] at hk
      have hne : (k == x.1) = false := by simpa using hk.1
      simpa [Url.first, List.lookup, hne] using ih hk.2
  refine ⟨fun k v h => ?_, fun k h => ?_, fun k v h => ?_, fun k h => ?_⟩
  · simp [Http.Req.postValue, Http.Req.formValue, Raw.req, hpost, hsome l k v ol h]
  · simp [Http.Req.postValue, Http.Req.formValue, Raw.req, hpost, hnone l k h]
  · simp [Http.Req.get, Raw.req, parseQuery_form hq, hsome q k v oq h]
  · simp [Http.Req.get, Raw.req, parseQuery_form hq, hnone q k h]

/-- A form posted by the client library. -/
theorem posted_req (params : List (Str × Str)) (url : DPoP.Target) :
    (posted params url).req = { method := g!"POST", post := Client.form params, target := url } := by
  have hmt : mediaType g!"application/x-www-form-urlencoded" = g!"application/x-www-form-urlencoded" := by decide +kernel
  have hpost : (posted params url).postForm = Url.parseQuery (Url.encode params) := by
    rw [Raw.postForm, if_pos ⟨Or.inl rfl, hmt⟩]
    rfl
  have h0 : ∀ (m : List (Str × Str)) k, Url.first m k = Client.form m k := by
    intro m k
    induction m with
    | nil => rfl
    | cons x l ih =>
      simp only [Url.first, List.lookup, Client.form, List.find?_cons] at ih ⊢
      by_cases h : x.1 = k
      · subst h
        simp
      · have hb : (k == x.1) = false := by simpa using Ne.symm h
        simp only [hb, h, decide_false]
        exact ih
  have h1 : Url.first (Url.parseQuery (Url.encode params)) = Client.form params := by
    funext k
    rw [Url.first_parse_encode, ← h0]
  have h2 : Url.first (Url.parseQuery []) = fun _ => none := by
    funext k
    rfl
  simp only [Raw.req, hpost, h1]
  simp only [posted, h2]
  rfl

/-- **C97** (client library over the wire). The texts that the client library and the attestation example send are read
as the requests of C73 and C75. -/
theorem C97_client (a v att pop : Str) (url : DPoP.Target) :
    (credentials a url).req = credentialsReq a url ∧ (Raw.introspect a v url).req = introspectReq a v url ∧
    (attested att pop url).req = attestedReq att pop url :=
  ⟨posted_req _ _, posted_req _ _, posted_req _ _⟩

/-- **C97** (C73 over the wire). A registered client of the library that sends its form obtains a token. -/
theorem C97_gets_token_partial {S : Server} {w : World} {L : Lib ClientAuth.PrivClaims} {o : Options} {key : Jose.Jwk} {a : Str} {cl : Client}
    {url : DPoP.Target} {tr : List Ev} {out : Outcome Http.Resp} (hp : Prepared S w L o key a)
    (hk : HasKey w S.P.jwks o.clientId cl (L.pub key)) (hi : S.issuer ≠ []) (hu : S.E.parseRequestURI S.issuer = true)
    (hb : cl.dpopBoundAccessTokens = false) (hty : cl.clientType = .confidential ∨ cl.clientType = .credentialed)
    (hgt : MemFold g!"client_credentials" cl.grantTypes)
    (hx : Exec (Http.serve S .token (credentials a url).req) tr out) (hw : ∀ ev ∈ tr, w.Healthy ev) :
    out = .stopped ∨ ∃ resp tk, out = .done resp ∧ readToken resp = some tk ∧ tk.tokenType = g!"Bearer" ∧ tk.accessToken ≠ [] := by
  rw [(C97_client a [] [] [] url).1] at hx
  rcases C73_gets_token_partial hp hk hi hu hb hty hgt hx hw with h | ⟨resp, tk, h1, h2, h3, h4, -⟩
  · exact .inl h
  · exact .inr ⟨resp, tk, h1, h2, h3, h4⟩

/-- The text that the example client sends, and the token that it obtains. -/
example : (credentials g!"assertion" {}).body = g!"client_assertion=assertion" ++
      g!"&client_assertion_type=urn%3Aietf%3Aparams%3Aoauth%3Aclient-assertion-type%3Ajwt-bearer&grant_type=client_credentials" ∧
    Prepared ccServer (ccWorld false) ccLib ccOptions { kid := g!"k1", key := g!"private" } g!"assertion" ∧
    ∃ tr resp, Exec (Http.serve ccServer .token (credentials g!"assertion" {}).req) tr (.done resp) ∧
      (∀ ev ∈ tr, (ccWorld false).Healthy ev) ∧ readToken resp = some ⟨g!"access", g!"Bearer", [], none⟩ := by
  refine ⟨by decide +kernel, cc_prepared false, ?_⟩
  rw [(C97_client g!"assertion" [] [] [] {}).1]
  exact oracle_run (ccAnswers false) _ (ccWorld false).Healthy
    (fun _ resp => readToken resp = some ⟨g!"access", g!"Bearer", [], none⟩) (ccAnswers_healthy _) (by decide +kernel)

/-! ### The login -/

/-- **C97** (login). The login accepts the credentials of RFC 7617, the scheme in any letter case, and whatever is
not refused carries them. -/
theorem C97_login (S : Server) (route : Route) (w : Raw) (hr : route ∈ [Route.authorize, .device]) :
    (∀ scheme, scheme.map asciiLower = g!"basic" → w.authorization = scheme ++ 32 :: stdEncode g!"hello:world" →
      w.req.basic = some (g!"hello", g!"world")) ∧
    (∀ tr a, Exec (Http.serve S route w.req) tr (.done a) → a.status ≠ 401 →
      ∃ scheme text, w.authorization = scheme ++ 32 :: text ∧ scheme.map asciiLower = g!"basic" ∧ stdDecode text = some g!"hello:world") := by
  refine ⟨fun scheme hs ha => ?_, fun tr a hx hst => ?_⟩
  · show basicOf w.authorization = _
    rw [ha]
    exact basicOf_basicAuth g!"hello" g!"world" scheme (by decide) hs
  · have hb : basicOf w.authorization = some (g!"hello", g!"world") :=
      C63_user_required S route w.req tr _ hr hx (Or.inr ⟨a, rfl, hst⟩)
    unfold basicOf at hb
    split at hb
    · cases hb
    rename_i hpre
    simp only [not_or, Nat.not_lt, not_not, ne_eq] at hpre
    have hk : ∀ b : UInt8, Url.lowerByte b = asciiLower b := by
      apply Url.bytes
      decide +kernel
    have h32 : ∀ b : UInt8, Url.lowerByte b = 32 → b = 32 := by
      apply Url.bytes
      decide +kernel
    cases hd : stdDecode (w.authorization.drop 6) with
    | none => rw [hd] at hb; cases hb
    | some c =>
      rw [hd] at hb
      dsimp only at hb
      split at hb
      · rename_i hm
        have hc : c = g!"hello:world" := by
          have e := Option.some.inj hb
          have e1 := congrArg Prod.fst e
          have e2 := congrArg Prod.snd e
          obtain ⟨x, y, rfl, hx⟩ : ∃ x y, c = x ++ 58 :: y ∧ (58 : UInt8) ∉ x := by
            clear hb hd e e1 e2
            induction c with
            | nil => cases hm
            | cons b c ih =>
              by_cases h : b = 58
              · exact ⟨[], c, by rw [h]; rfl, by simp⟩
              · obtain ⟨x, y, rfl, hx⟩ := ih (by simpa [Ne.symm h] using hm)
                exact ⟨b :: x, y, rfl, by simp [Ne.symm h, hx]⟩
          rw [Url.cut_append hx] at e1 e2
          dsimp only at e1 e2
          rw [e1, e2]
          rfl
        subst hc
        obtain ⟨h6, hlow⟩ := hpre
        have hsplit : w.authorization = w.authorization.take 6 ++ w.authorization.drop 6 := (List.take_append_drop 6 _).symm
        generalize w.authorization.take 6 = p at hlow hsplit
        have hlen : p.length = 6 := by simpa using congrArg List.length hlow
        match p, hlen, hlow with
        | [p0, p1, p2, p3, p4, p5], _, hlow =>
          simp only [List.map_cons, List.map_nil, List.cons.injEq, and_true] at hlow
          obtain ⟨e0, e1, e2, e3, e4, e5⟩ := hlow
          refine ⟨[p0, p1, p2, p3, p4], w.authorization.drop 6, ?_, ?_, hd⟩
          · have := h32 p5 e5
            subst this
            exact hsplit
          · simp only [List.map_cons, List.map_nil, ← hk, e0, e1, e2, e3, e4]
      · cases hb

/-- The credentials that a browser sends, and what a wrong password gives. -/
example : Raw.basicAuth g!"hello" g!"world" = g!"Basic aGVsbG86d29ybGQ=" ∧
    basicOf g!"bAsIc aGVsbG86d29ybGQ=" = some (g!"hello", g!"world") ∧ basicOf g!"Basic aGVsbG86d29ybGQ" = none ∧
    basicOf g!"Basic aGVsbG8=" = none ∧ basicOf g!"Basic aGVsbG86d29ybGR=" = some (g!"hello", g!"world") := by decide +kernel

/-! ### What is not refused -/

theorem form_free {t : Str} {l : List (Str × Str)} (h : Form t l) : (59 : UInt8) ∉ t := by
  have hp : ∀ {t x}, FormPair t x → (59 : UInt8) ∉ t := by
    rintro t x ⟨k, v, rfl, hk, hv⟩
    simp [(formText_free hk).2.1, (formText_free hv).2.1]
  induction h with
  | nil => simp
  | one h => exact hp h
  | cons h _ ih => simp [hp h, ih]

/-- A token request of the public client `app` with this body, and this after its identifier in the query. -/
def rawCode (body query : Str) : Raw where
  method := g!"POST"
  rawQuery := g!"client_id=app" ++ query
  contentType := g!"Application/x-www-form-urlencoded; charset=utf-8"
  body := body
  target := { host := g!"as", path := g!"/token" }

/-- The redemption of the code of the example. -/
def codeForm : List (Str × Str) :=
  [(g!"grant_type", g!"authorization_code"), (g!"code", g!"c0de"), (g!"redirect_uri", g!"https://app/cb"),
    (g!"code_verifier", Demo.verifier)]

/-- A form that no Go program would write is read as that one. -/
example : Form g!"co%64e=c0de&s%63ope=a+b%20c" [(g!"code", g!"c0de"), (g!"scope", g!"a b c")] ∧
    (rawCode g!"co%64e=c0de&s%63ope=a+b%20c" []).req.formValue g!"scope" = g!"a b c" := by
  have p : ∀ b : UInt8, b ∉ g!"&=+%;" → ∀ {u s}, FormText u s → FormText (b :: u) (b :: s) := fun b hb _ _ h => .cons (.plain b hb) h
  have x : ∀ (a b : UInt8) m n, hexDigit a = some m → hexDigit b = some n → ∀ {u s}, FormText u s →
      FormText (37 :: a :: b :: u) (UInt8.ofNat (16 * m + n) :: s) := fun a b m n ha hb _ _ h => .cons (.hex a b m n ha hb) h
  refine ⟨.cons (t := g!"co%64e=c0de") (u := g!"s%63ope=a+b%20c") ⟨g!"co%64e", g!"c0de", rfl, ?_, ?_⟩
    (.one ⟨g!"s%63ope", g!"a+b%20c", rfl, ?_, ?_⟩), by decide +kernel⟩
  · exact p _ (by decide) (p _ (by decide) (x 54 52 6 4 (by decide +kernel) (by decide +kernel) (p _ (by decide) .nil)))
  · exact p _ (by decide) (p _ (by decide) (p _ (by decide) (p _ (by decide) .nil)))
  · exact p _ (by decide) (x 54 51 6 3 (by decide +kernel) (by decide +kernel) (p _ (by decide) (p _ (by decide) (p _ (by decide) .nil))))
  · exact p _ (by decide) (.cons .space (p _ (by decide) (x 50 48 2 0 (by decide +kernel) (by decide +kernel) (p _ (by decide) .nil))))

/-- The request of the example is served. -/
example : Once (Url.sortKeys codeForm) ∧ SaysForm (rawCode (Url.encode codeForm) []).contentType ∧
    ∃ tr a, Exec (Http.serve Demo.server .token (rawCode (Url.encode codeForm) []).req) tr (.done a) ∧
      (∀ ev ∈ tr, StoreContract ev) ∧ a.status = 200 := by
  refine ⟨by unfold Once; decide +kernel, ⟨g!"Application/x-www-form-urlencoded", g!"; charset=utf-8", rfl, by decide +kernel, .inr rfl⟩, ?_⟩
  exact oracle_run Demo.httpAnswers _ StoreContract (fun _ (a : Http.Resp) => a.status = 200) Demo.httpAnswers_contract (by decide +kernel)

/-- **C97_repeated_violated.** A token request with two different codes and two grant types is served, with the first of
them: RFC 6749 section 3.2 forbids repeated parameters. -/
theorem C97_repeated_violated : ∃ (S : Server) (w : Raw) (l : List (Str × Str)) (tr : List Ev) (a : Http.Resp),
    SaysForm w.contentType ∧ Form w.body l ∧ (g!"code", g!"c0de") ∈ l ∧ (g!"code", g!"other") ∈ l ∧
    (g!"grant_type", g!"authorization_code") ∈ l ∧ (g!"grant_type", g!"refresh_token") ∈ l ∧
    Exec (Http.serve S .token w.req) tr (.done a) ∧ (∀ ev ∈ tr, StoreContract ev) ∧ a.status = 200 := by
  obtain ⟨tr, a, h⟩ := oracle_run Demo.httpAnswers
    (Http.serve Demo.server .token (rawCode (Url.encode (codeForm ++ [(g!"code", g!"other"), (g!"grant_type", g!"refresh_token")])) []).req)
    StoreContract (fun _ (a : Http.Resp) => a.status = 200) Demo.httpAnswers_contract (by decide +kernel)
  exact ⟨_, _, _, tr, a, ⟨g!"Application/x-www-form-urlencoded", g!"; charset=utf-8", rfl, by decide +kernel, .inr rfl⟩, form_encode _,
    by decide +kernel, by decide +kernel, by decide +kernel, by decide +kernel, h⟩

/-- **C97_malformed_violated.** A token request whose body is no form at all is served: the malformed part is dropped. -/
theorem C97_malformed_violated : ∃ (S : Server) (w : Raw) (tr : List Ev) (a : Http.Resp),
    SaysForm w.contentType ∧ (¬ ∃ l, Form w.body l) ∧
    Exec (Http.serve S .token w.req) tr (.done a) ∧ (∀ ev ∈ tr, StoreContract ev) ∧ a.status = 200 := by
  obtain ⟨tr, a, h⟩ := oracle_run Demo.httpAnswers
    (Http.serve Demo.server .token (rawCode (Url.encode codeForm ++ g!"&grant_type=refresh_token;refresh_token=x") []).req)
    StoreContract (fun _ (a : Http.Resp) => a.status = 200) Demo.httpAnswers_contract (by decide +kernel)
  refine ⟨_, _, tr, a, ⟨g!"Application/x-www-form-urlencoded", g!"; charset=utf-8", rfl, by decide +kernel, .inr rfl⟩, ?_, h⟩
  rintro ⟨l, hl⟩
  exact form_free hl (by show (59 : UInt8) ∈ Url.encode codeForm ++ g!"&grant_type=refresh_token;refresh_token=x"; decide +kernel)

/-- **C97_query_violated.** The code and its verifier are accepted in the URL, where they are logged, with an empty body:
RFC 6749 section 4.1.3 has them sent in the body. -/
theorem C97_query_violated : ∃ (S : Server) (w : Raw) (l : List (Str × Str)) (tr : List Ev) (a : Http.Resp),
    w.body = [] ∧ Form w.rawQuery l ∧ (g!"code", g!"c0de") ∈ l ∧ (g!"code_verifier", Demo.verifier) ∈ l ∧
    Exec (Http.serve S .token w.req) tr (.done a) ∧ (∀ ev ∈ tr, StoreContract ev) ∧ a.status = 200 := by
  obtain ⟨tr, a, h⟩ := oracle_run Demo.httpAnswers
    (Http.serve Demo.server .token ({ (rawCode [] []) with rawQuery := Url.encode ((g!"client_id", g!"app") :: codeForm) } : Raw).req)
    StoreContract (fun _ (a : Http.Resp) => a.status = 200) Demo.httpAnswers_contract (by decide +kernel)
  exact ⟨_, _, _, tr, a, rfl, form_encode _, by decide +kernel, by decide +kernel, h⟩

/-- **C97_get_violated.** Introspection and revocation are served to any method, with the token in the URL: RFC 7662 section
2.1 and RFC 7009 section 2.1 have them posted. -/
theorem C97_get_violated (route : Route) (hr : route ∈ [Route.introspect, .revoke]) :
    ∃ (S : Server) (w : Raw) (l : List (Str × Str)) (tr : List Ev) (a : Http.Resp),
    w.method = g!"GET" ∧ w.body = [] ∧ Form w.rawQuery l ∧ (g!"token", g!"tok") ∈ l ∧
    Exec (Http.serve S route w.req) tr (.done a) ∧ (∀ ev ∈ tr, StoreContract ev) ∧ a.status = 200 := by
  have hx : ∃ (tr : List Ev) (a : Http.Resp), Exec (Http.serve Demo.server route
      ({ method := g!"GET", rawQuery := Url.encode [(g!"client_id", g!"app"), (g!"token", g!"tok")],
         target := { host := g!"as", path := g!"/introspect" } } : Raw).req) tr (.done a) ∧ (∀ ev ∈ tr, StoreContract ev) ∧
      a.status = 200 := by
    simp only [List.mem_cons, List.not_mem_nil, or_false] at hr
    rcases hr with rfl | rfl
    · exact oracle_run Demo.httpAnswers _ StoreContract (fun _ (a : Http.Resp) => a.status = 200) Demo.httpAnswers_contract (by decide +kernel)
    · exact oracle_run Demo.httpAnswers _ StoreContract (fun _ (a : Http.Resp) => a.status = 200) Demo.httpAnswers_contract (by decide +kernel)
  obtain ⟨tr, a, h⟩ := hx
  exact ⟨_, _, _, tr, a, rfl, rfl, form_encode _, by decide +kernel, h⟩

end Verif.Props
