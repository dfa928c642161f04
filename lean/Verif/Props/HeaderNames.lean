import Verif.Props.Challenge
import Verif.Props.Discovery
import Verif.Props.Headers

/-! The names of the header fields of the example server (C96). -/
namespace Verif.Props
open Verif.Prog Verif.Spec Verif.Http Verif.Headers

/-- The form in which `net/http` writes the names of header fields: the first letter and every letter
behind a hyphen large, all others small. -/
def Capitalised (n : Str) : Prop :=
  ∀ i c, n[i]? = some c →
    if i = 0 ∨ n[i - 1]? = some 45 then ¬ (97 ≤ c ∧ c ≤ 122) else ¬ (65 ≤ c ∧ c ≤ 90)

/-- One letter of a name, ignoring its case. -/
def small (c : UInt8) : UInt8 := if 65 ≤ c ∧ c ≤ 90 then c + 32 else c

/-- The fields that the answers have. -/
def answerFields : List Str :=
  [g!"Content-Type", g!"Www-Authenticate", g!"Location", g!"Cache-Control", g!"Pragma", g!"Content-Security-Policy",
    g!"X-Content-Type-Options", g!"X-Frame-Options", g!"X-Xss-Protection", g!"Referrer-Policy", g!"X-Robots-Tag"]

/-- One byte of `canonFrom`. -/
def canonByte (upper : Bool) (c : UInt8) : UInt8 :=
  if upper ∧ 97 ≤ c ∧ c ≤ 122 then c - 32 else if ¬ upper ∧ 65 ≤ c ∧ c ≤ 90 then c + 32 else c

theorem canonByte_small (u : Bool) : ∀ c, canonByte u (small c) = canonByte u c ∧ small (canonByte u c) = small c ∧
    (small c = 45 ↔ c = 45) ∧ (canonByte u c = 45 ↔ c = 45) ∧
    (if u = true then ¬ (97 ≤ canonByte u c ∧ canonByte u c ≤ 122) else ¬ (65 ≤ canonByte u c ∧ canonByte u c ≤ 90)) := by
  apply Url.bytes
  cases u <;> decide +kernel

theorem canonFrom_cons (u : Bool) (c : UInt8) (s : Str) :
    canonFrom u (c :: s) = canonByte u c :: canonFrom (decide (c = 45)) s := rfl

theorem canonFrom_small : ∀ (u : Bool) (s : Str), canonFrom u (s.map small) = canonFrom u s
  | _, [] => rfl
  | u, c :: s => by
    rw [List.map_cons, canonFrom_cons, canonFrom_cons, (canonByte_small u c).1, canonFrom_small]
    simp only [(canonByte_small u c).2.2.1]

theorem small_canonFrom : ∀ (u : Bool) (s : Str), (canonFrom u s).map small = s.map small
  | _, [] => rfl
  | u, c :: s => by
    rw [canonFrom_cons, List.map_cons, List.map_cons, (canonByte_small u c).2.1, small_canonFrom]

theorem canon_eq_iff (k k' : Str) : canon k = canon k' ↔ k.map small = k'.map small := by
  constructor
  · intro h
    rw [← small_canonFrom true k, ← small_canonFrom true k']
    exact congrArg _ h
  · intro h
    rw [canon, canon, ← canonFrom_small true k, ← canonFrom_small true k', h]

theorem canonFrom_capitalised : ∀ (s : Str) (u : Bool) (i : Nat) (c : UInt8), (canonFrom u s)[i]? = some c →
    if (i = 0 ∧ u = true) ∨ (i ≠ 0 ∧ (canonFrom u s)[i - 1]? = some 45) then ¬ (97 ≤ c ∧ c ≤ 122) else ¬ (65 ≤ c ∧ c ≤ 90)
  | [], u, i, c, h => by simp [canonFrom] at h
  | b :: s, u, 0, c, h => by
    rw [canonFrom_cons] at h
    simp only [List.getElem?_cons_zero, Option.some.injEq] at h
    subst h
    have := (canonByte_small u b).2.2.2.2
    simpa using this
  | b :: s, u, i + 1, c, h => by
    rw [canonFrom_cons, List.getElem?_cons_succ] at h
    have ih := canonFrom_capitalised s _ i c h
    rw [canonFrom_cons]
    cases i with
    | zero =>
      have k := (canonByte_small u b).2.2.2.1
      simpa [k] using ih
    | succ i => simpa using ih

theorem canon_capitalised (k : Str) : Capitalised (canon k) := by
  intro i c h
  have := canonFrom_capitalised k true i c h
  by_cases hi : i = 0
  · simpa [hi] using this
  · simpa [hi, canon] using this

/-- **C96** (fields). A header behaves as a map whose keys are the names without regard to case: what was set last under a
name is read under it, in whatever case it is written, and no other field is changed. -/
theorem C96_fields (h : Header) (k k' v : Str) :
    Headers.get (Headers.set h k v) k' = if k.map small = k'.map small then some v else Headers.get h k' := by
  split
  · rename_i e
    exact get_set_same h v ((canon_eq_iff k k').2 e)
  · rename_i e
    exact get_set_other h v fun e' => e ((canon_eq_iff k k').1 e')

theorem names_set {h : Header} {k v : Str} (hh : ∀ x ∈ h, x.1 ∈ answerFields) (hk : canon k ∈ answerFields) :
    ∀ x ∈ Headers.set h k v, x.1 ∈ answerFields := by
  intro x hx
  rcases List.mem_cons.1 hx with rfl | hx
  · exact hk
  · exact hh x (List.mem_filter.1 hx).1

theorem names_redirect {h : Header} {g : Bool} {l : Str} (hh : ∀ x ∈ h, x.1 ∈ answerFields) :
    ∀ x ∈ redirectH g l h, x.1 ∈ answerFields := by
  have := names_set (k := g!"Location") (v := l) hh (by decide +kernel)
  unfold redirectH
  dsimp only
  split
  · exact names_set this (by decide +kernel)
  · exact this

theorem names_written (x : Ctx) (a : Http.Resp) {h : Header} (hh : ∀ x ∈ h, x.1 ∈ answerFields) :
    ∀ y ∈ written x a h, y.1 ∈ answerFields := by
  have hj : ∀ y ∈ withJSONH h, y.1 ∈ answerFields := names_set hh (by decide +kernel)
  unfold written
  split
  · split
    · exact names_set (names_set hh (by decide +kernel)) (by decide +kernel)
    · exact hh
  · split
    · exact hh
    · exact names_set (names_set hh (by decide +kernel)) (by decide +kernel)
  · exact hj
  · exact hj
  · exact hj
  · exact hj
  · unfold authorizationH
    split
    · exact names_redirect hh
    · exact names_redirect hh
    · exact names_redirect hh
    · exact names_set (names_set (names_set hh (by decide +kernel)) (by decide +kernel)) (by decide +kernel)
  · exact hh

/-- **C96** (names). Every answer has only the fields listed, each written as `net/http` writes names. In particular no
answer sets a cookie and none lets the scripts of other origins read it. -/
theorem C96_names (S : Server) (host nonce : Str) (route : Route) (r : Http.Req) (tr : List Ev) (y : Reply)
    (h : Exec (serveH S host nonce route r) tr (.done y)) :
    (∀ x ∈ y.header, x.1 ∈ answerFields ∧ Capitalised x.1) ∧
    Headers.get y.header g!"set-cookie" = none ∧ Headers.get y.header g!"access-control-allow-origin" = none := by
  have hs : ∀ x ∈ secure [], x.1 ∈ answerFields := by decide +kernel
  have hn : ∀ x ∈ y.header, x.1 ∈ answerFields := by
    rcases (serveH_done h).2 with ⟨-, e⟩ | ⟨-, -, -, e⟩ | ⟨-, -, e⟩ <;> rw [e]
    · exact names_written _ _ (by simp)
    · exact names_set (by simp) (by decide +kernel)
    · exact names_written _ _ hs
  have hc : ∀ n ∈ answerFields, canon n = n := by decide +kernel
  have absent : ∀ k, canon k ∉ answerFields → Headers.get y.header k = none := by
    intro k hk
    rw [Headers.get, List.lookup_eq_none_iff]
    intro p hp
    simpa using fun e : canon k = p.1 => hk (e ▸ hn p hp)
  refine ⟨fun x hx => ⟨hn x hx, ?_⟩, absent _ (by decide +kernel), absent _ (by decide +kernel)⟩
  rw [← hc x.1 (hn x hx)]
  exact canon_capitalised _

/-- C96: an answer with a challenge, whose name the source writes in other letters. -/
example : ∃ tr y, Exec (serveH exactServer g!"as" g!"n" .token { method := g!"POST" }) tr (.done y) ∧
    y.header.map Prod.fst = [g!"Www-Authenticate", g!"Content-Type"] := by
  have h : ((serveH exactServer g!"as" g!"n" .token { method := g!"POST" }).oracle Demo.httpAnswers).2.get?.any
      (fun a => decide (a.header.map Prod.fst = [g!"Www-Authenticate", g!"Content-Type"])) = true := by decide +kernel
  cases hg : ((serveH exactServer g!"as" g!"n" .token { method := g!"POST" }).oracle Demo.httpAnswers).2.get? with
  | none => rw [hg] at h; simp at h
  | some a =>
    rw [hg] at h
    exact ⟨_, a, Prog.oracle_done _ _ a hg, by simpa using h⟩

/-- C96: names in different case. -/
example : Headers.get (Headers.set (Headers.set [] g!"X-A" g!"1") g!"x-b" g!"2") g!"x-a" = some g!"1" := by decide

/-- **C96** (declared). What is neither JSON nor a page is declared too: a redirection as HTML, and the text that refuses a
method as plain text that is not to be taken for anything else. -/
theorem C96_declared (S : Server) (host nonce : Str) (route : Route) (r : Http.Req) (tr : List Ev) (y : Reply)
    (hnil : ∀ id, ⟨.clientsGet id, .ok none⟩ ∉ tr) (h : Exec (serveH S host nonce route r) tr (.done y)) :
    (y.resp.status = 302 → Headers.get y.header g!"Content-Type" = some g!"text/html; charset=utf-8") ∧
    (y.resp = ⟨405, .empty⟩ → Headers.get y.header g!"Content-Type" = some g!"text/plain; charset=utf-8" ∧
      Headers.get y.header g!"X-Content-Type-Options" = some g!"nosniff") := by
  have hx := (serveH_done h).1
  rcases reply_cases hnil h with rfl | ⟨k, k'⟩
  · exact ⟨fun e => by simp at e, fun e => by cases e⟩
  obtain ⟨hd, a⟩ := y
  dsimp only at hx k k' ⊢
  refine ⟨fun e => ?_, ?_⟩
  · rcases k with k | ⟨n, c, rfl, hn⟩ | ⟨_, rfl⟩
    · cases route <;> simp only [Accepted] at k
      · obtain ⟨_, _, _, rfl⟩ := k; simp at e
      · obtain ⟨u, t, rfl⟩ := k
        obtain rfl : hd = written (ctx host nonce r) ⟨302, .authorization u .queryJWT t⟩ (secure []) :=
          k'.elim (fun k => absurd (by simp) k.1) (·.2)
        have hm := (authorization_facts hx).1
        have hs : (Headers.get (secure []) g!"Content-Type").isSome = false := by decide +kernel
        simp only [written, authorizationH, redirectH, hs, ctx, hm]
        exact get_set_same _ _ rfl
      · obtain ⟨_, rfl⟩ := k; simp at e
      · obtain ⟨_, rfl⟩ := k; simp at e
      · subst k; simp at e
      · obtain ⟨_, _, _, _, _, rfl⟩ := k; simp at e
      · rcases k with rfl | rfl <;> simp at e
    · simp only [List.mem_cons, List.not_mem_nil, or_false] at hn
      dsimp only at e
      omega
    · simp at e
  · rintro rfl
    have hx : ∃ h0, hd = written (ctx host nonce r) ⟨405, .empty⟩ h0 := k'.elim (fun k => ⟨_, k.2⟩) fun k => ⟨_, k.2⟩
    obtain ⟨h0, rfl⟩ := hx
    simp only [written, if_pos]
    refine ⟨?_, get_set_same _ _ rfl⟩
    rw [get_set_other _ _ (by decide +kernel)]
    exact get_set_same _ _ rfl

/-- C96: a pushed request with a wrong method; the demonstration of `Props/Headers.lean` redirects. -/
example : ∃ tr y, Exec (serveH exactServer g!"evil\r\nX: y" g!"n" .par { Demo.httpCode with method := g!"PUT" }) tr (.done y) ∧
    (∀ id, ⟨.clientsGet id, .ok none⟩ ∉ tr) ∧ y.resp = ⟨405, .empty⟩ :=
  headers_ex _ _ _ (by decide +kernel)

/-! ### Quoted texts -/

/-- The value of a hexadecimal digit. -/
def hexValue (c : UInt8) : Option UInt8 :=
  if 48 ≤ c ∧ c ≤ 57 then some (c - 48) else if 97 ≤ c ∧ c ≤ 102 then some (c - 87) else none

/-- What Go reads at the start of a text in double quotes, for bytes: a byte that stands for itself or one of the escapes of
the language specification. The closing quote is not read. -/
def goByte : Str → Option (UInt8 × Str)
  | [] => none
  | c :: s =>
    if c = 34 ∨ c = 10 then none
    else if c ≠ 92 then some (c, s)
    else match s with
      | 120 :: a :: b :: s => do return ((← hexValue a) * 16 + (← hexValue b), s)
      | c :: s => ([(97, 7), (98, 8), (102, 12), (110, 10), (114, 13), (116, 9), (118, 11), (92, 92), (34, 34)].lookup c).map (·, s)
      | [] => none

/-- **C96** (quoting). The Go reader finds, for every byte, the byte that was quoted, whatever follows. -/
theorem C96_quoted (b : UInt8) (r : Str) : goByte (quote.byte b ++ r) = some (b, r) := by
  have k : ∀ b : UInt8, (quote.byte b = [b] ∧ b ≠ 34 ∧ b ≠ 10 ∧ b ≠ 92) ∨
      (∃ c, quote.byte b = [92, c] ∧ c ≠ 120 ∧
        [(97, 7), (98, 8), (102, 12), (110, 10), (114, 13), (116, 9), (118, 11), (92, 92), (34, 34)].lookup c = some b) ∨
      (quote.byte b = [92, 120, quote.hex (b / 16), quote.hex (b % 16)] ∧
        hexValue (quote.hex (b / 16)) = some (b / 16) ∧ hexValue (quote.hex (b % 16)) = some (b % 16) ∧ b / 16 * 16 + b % 16 = b) := by
    intro b
    have : (quote.byte b = [b] ∧ b ≠ 34 ∧ b ≠ 10 ∧ b ≠ 92) ∨
      ((quote.byte b).length = 2 ∧ (quote.byte b).head? = some 92 ∧ (quote.byte b).getD 1 0 ≠ 120 ∧
        [((97 : UInt8), (7 : UInt8)), (98, 8), (102, 12), (110, 10), (114, 13), (116, 9), (118, 11), (92, 92), (34, 34)].lookup
          ((quote.byte b).getD 1 0) = some b) ∨
      (quote.byte b = [92, 120, quote.hex (b / 16), quote.hex (b % 16)] ∧
        hexValue (quote.hex (b / 16)) = some (b / 16) ∧ hexValue (quote.hex (b % 16)) = some (b % 16) ∧ b / 16 * 16 + b % 16 = b) := by
      revert b
      apply Url.bytes
      decide +kernel
    refine this.imp id (Or.imp (fun h => ?_) id)
    obtain ⟨h1, h2, h3, h4⟩ := h
    generalize hq : quote.byte b = q at *
    match q, h1 with
    | [x, c], _ =>
      simp at h2 h3 h4
      exact ⟨c, by rw [h2], h3, h4⟩
  rcases k b with ⟨h, h1, h2, h3⟩ | ⟨c, h, h1, h2⟩ | ⟨h, h1, h2, h3⟩ <;> rw [h]
  · simp [goByte, h1, h2, h3]
  · have : goByte (92 :: c :: r) =
        ([(97, 7), (98, 8), (102, 12), (110, 10), (114, 13), (116, 9), (118, 11), (92, 92), (34, 34)].lookup c).map (·, r) := by
      simp only [goByte]
      rw [if_neg (by decide), if_neg (by decide)]
      split
      · rename_i e; exact absurd (List.cons.inj e).1 h1
      · rename_i e; obtain ⟨rfl, rfl⟩ := List.cons.inj e; rfl
      · rename_i e; cases e
    show goByte (92 :: c :: r) = _
    rw [this, h2]; rfl
  · show goByte (92 :: 120 :: quote.hex (b / 16) :: quote.hex (b % 16) :: r) = _
    simp only [goByte]
    rw [if_neg (by decide), if_neg (by decide)]
    simp [h1, h2, h3]

theorem quoted_inj : ∀ (s s' r r' : Str), s.flatMap quote.byte ++ 34 :: r = s'.flatMap quote.byte ++ 34 :: r' → s = s' ∧ r = r'
  | [], [], r, r', h => by simpa using h
  | [], b :: s', r, r', h => by
    have k := C96_quoted b (s'.flatMap quote.byte ++ 34 :: r')
    rw [← List.append_assoc, ← List.flatMap_cons, ← h] at k
    simp [goByte] at k
  | b :: s, [], r, r', h => by
    have k := C96_quoted b (s.flatMap quote.byte ++ 34 :: r)
    rw [← List.append_assoc, ← List.flatMap_cons, h] at k
    simp [goByte] at k
  | b :: s, b' :: s', r, r', h => by
    have k := C96_quoted b (s.flatMap quote.byte ++ 34 :: r)
    rw [← List.append_assoc, ← List.flatMap_cons, h, List.flatMap_cons, List.append_assoc, C96_quoted] at k
    obtain ⟨rfl, k2⟩ := Prod.mk.inj (Option.some.inj k)
    obtain ⟨rfl, rfl⟩ := quoted_inj _ _ _ _ k2.symm
    exact ⟨rfl, rfl⟩

theorem quote_inj {s s' r r' : Str} (h : quote s ++ r = quote s' ++ r') : s = s' ∧ r = r' := by
  simp only [quote, List.cons_append, List.append_assoc, List.nil_append, List.cons.injEq, true_and] at h
  exact quoted_inj _ _ _ _ h

/-- The challenge of a refusal. -/
theorem refusal_challenge {S : Server} {host nonce : Str} {route : Route} {r : Http.Req} {tr : List Ev} {y : Reply} {c : ErrCode}
    (hnil : ∀ id, ⟨.clientsGet id, .ok none⟩ ∉ tr) (h : Exec (serveH S host nonce route r) tr (.done y))
    (hc : y.resp.body = .error c) : Headers.get y.header g!"WWW-Authenticate" =
      some (g!"Bearer realm=" ++ quote host ++ g!", error=" ++ quote (Discovery.codeText c) ++
        g!", error_description=" ++ quote (Discovery.description c)) := by
  rcases reply_cases hnil h with rfl | ⟨k, k'⟩
  · cases hc
  obtain ⟨hd, a⟩ := y
  dsimp only at hc k k' ⊢
  have hx : ∃ h0, hd = written (ctx host nonce r) a h0 := k'.elim (fun k => ⟨_, k.2⟩) fun k => ⟨_, k.2⟩
  obtain ⟨h0, rfl⟩ := hx
  rcases k with k | ⟨n, c', rfl, hn⟩ | ⟨_, rfl⟩
  · cases route <;> simp only [Accepted] at k
    · obtain ⟨_, _, _, rfl⟩ := k; cases hc
    · obtain ⟨_, _, rfl⟩ := k; cases hc
    · obtain ⟨_, rfl⟩ := k; cases hc
    · obtain ⟨_, rfl⟩ := k; cases hc
    · subst k; cases hc
    · obtain ⟨_, _, _, _, _, rfl⟩ := k; cases hc
    · rcases k with rfl | rfl <;> cases hc
  · cases hc
    exact (error_fields (ctx host nonce r) n c h0 hn).2
  · cases hc

/-- **C96** (told apart). Two refusals with the same challenge name the same host and the same error, whatever bytes the
hosts hold: a host cannot be chosen so that the challenge says something else. -/
theorem C96_told_apart (S S' : Server) (host host' nonce nonce' : Str) (route route' : Route) (r r' : Http.Req) (tr tr' : List Ev)
    (y y' : Reply) (c c' : ErrCode) (hnil : ∀ id, ⟨.clientsGet id, .ok none⟩ ∉ tr) (hnil' : ∀ id, ⟨.clientsGet id, .ok none⟩ ∉ tr')
    (h : Exec (serveH S host nonce route r) tr (.done y)) (h' : Exec (serveH S' host' nonce' route' r') tr' (.done y'))
    (hc : y.resp.body = .error c) (hc' : y'.resp.body = .error c')
    (e : Headers.get y.header g!"WWW-Authenticate" = Headers.get y'.header g!"WWW-Authenticate") :
    host = host' ∧ c = c' := by
  rw [refusal_challenge hnil h hc, refusal_challenge hnil' h' hc'] at e
  have e := Option.some.inj e
  simp only [List.append_assoc] at e
  obtain ⟨e1, e2⟩ := quote_inj (List.append_cancel_left e)
  obtain ⟨e3, -⟩ := quote_inj (List.append_cancel_left e2)
  exact ⟨e1, codeText_inj e3⟩

/-- C96: a refusal whose host tries to add an error. -/
example : ∃ tr y, Exec (serveH exactServer g!"a\", error=\"x\"\n" g!"n" .token { method := g!"POST" }) tr (.done y) ∧
    (∀ id, ⟨.clientsGet id, .ok none⟩ ∉ tr) ∧ y.resp.body = .error .invalidRequest ∧
    (Headers.get y.header g!"www-authenticate").map (·.take 38) = some g!"Bearer realm=\"a\\\", error=\\\"x\\\"\\n\", err" := by
  have h : ((serveH exactServer g!"a\", error=\"x\"\n" g!"n" .token { method := g!"POST" }).oracle Demo.httpAnswers).2.get?.any
      (fun y => decide (y.resp.body = .error .invalidRequest ∧
        (Headers.get y.header g!"www-authenticate").map (·.take 38) = some g!"Bearer realm=\"a\\\", error=\\\"x\\\"\\n\", err")) = true := by
    decide +kernel
  cases hg : ((serveH exactServer g!"a\", error=\"x\"\n" g!"n" .token { method := g!"POST" }).oracle Demo.httpAnswers).2.get? with
  | none => rw [hg] at h; simp at h
  | some a =>
    rw [hg] at h
    exact ⟨_, a, Prog.oracle_done _ _ a hg, not_nil_of_contract (oracle_all _ Demo.httpAnswers_contract _), by simpa using h⟩

/-! ### The resource server -/

/-- The header of every refusal of the resource server. -/
def PlainText (hd : Header) : Prop :=
  Headers.get hd g!"Content-Type" = some g!"text/plain; charset=utf-8" ∧
  Headers.get hd g!"X-Content-Type-Options" = some g!"nosniff" ∧
  ∀ x ∈ hd, x.1 ∈ [g!"Content-Type", g!"X-Content-Type-Options", g!"Www-Authenticate"]

theorem plain_error {n m : Nat} {h hd : Header} (hh : ∀ x ∈ h, x.1 = g!"Www-Authenticate")
    (e : ResourceServer.httpError m h = .refused n hd) : PlainText hd := by
  cases e
  refine ⟨?_, get_set_same _ _ rfl, fun x hx => ?_⟩
  · rw [get_set_other _ _ (by decide +kernel)]
    exact get_set_same _ _ rfl
  · rcases List.mem_cons.1 hx with rfl | hx
    · decide +kernel
    · rcases List.mem_cons.1 (List.mem_filter.1 hx).1 with rfl | hx
      · decide +kernel
      · rw [hh x (List.mem_filter.1 hx).1]
        decide +kernel

theorem plain_challenge {t : Str} {n : Nat} {hd : Header} (e : ResourceServer.challenge t = .refused n hd) : PlainText hd :=
  plain_error (fun x hx => by
    rcases List.mem_cons.1 hx with rfl | hx
    · show canon g!"WWW-Authenticate" = _
      decide +kernel
    · simp at hx) e

/-- **C100** (plain text). Every refusal of the resource server is declared as plain text that browsers do not take for
anything else, and has no other field than the challenge. -/
theorem C100_plain (E : Env) (cli : ResourceServer.Cli) (intent : Str) (acr : List Str) (max : Nat) (r : ResourceServer.Req)
    (tr : List Ev) (n : Nat) (hd : Header)
    (h : Exec (ResourceServer.authorizerH E cli intent acr max r) tr (.done (.refused n hd))) : PlainText hd := by
  have inner : ∀ o tr, Exec (ResourceServer.authorizeH intent acr max o) tr (.done (.refused n hd)) → PlainText hd := by
    intro o tr h
    cases o with
    | none =>
      generalize e : Outcome.done (ResourceServer.Told.refused n hd) = x at h
      cases h
      · exact plain_challenge (Outcome.done.inj e).symm
      · cases e
    | some id =>
      unfold ResourceServer.authorizeH at h
      obtain ⟨t1, t2, b, rfl, -, h⟩ := exec_bind_done h
      generalize e : Outcome.done (ResourceServer.Told.refused n hd) = x at h
      split at h
      · split at h
        · cases h
          · exact plain_challenge (Outcome.done.inj e).symm
          · cases e
        · split at h
          · cases h
            · exact plain_error (by simp) (Outcome.done.inj e).symm
            · cases e
          · cases h <;> cases e
      · cases h
        · exact plain_challenge (Outcome.done.inj e).symm
        · cases e
  unfold ResourceServer.authorizerH at h
  generalize e : Outcome.done (ResourceServer.Told.refused n hd) = x at h
  split at h
  · cases h
    · exact plain_challenge (Outcome.done.inj e).symm
    · cases e
  split at h
  · subst e
    obtain ⟨t1, t2, b, rfl, -, h⟩ := exec_bind_done h
    exact inner _ _ h
  split at h
  · subst e
    obtain ⟨t1, t2, b, rfl, -, h⟩ := exec_bind_done h
    exact inner _ _ h
  · cases h
    · exact plain_error (by simp) (Outcome.done.inj e).symm
    · cases e

/-- C100: a request without credentials is refused. -/
example : ∃ hd, Exec (ResourceServer.authorizerH Demo.env (demoCli { status := .active }) [] [] 30
    { method := g!"GET", target := { host := g!"rs", path := g!"/" } }) [] (.done (.refused 401 hd)) :=
  ⟨_, .ret _⟩

end Verif.Props
