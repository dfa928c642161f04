import Verif.Spec.Answers
import Verif.Proofs.Json
import Verif.Props.Discovery
import Verif.Props.Challenge

/-!
C106: the JSON texts of the answers.
-/
namespace Verif.Props
open Verif.Spec Verif.Spec.Json Verif.Http Verif.Discovery Verif.Json

/-! ### Reading -/

/-- **C106** (reading). A JSON text stands for one value only. -/
theorem C106_unambiguous {v v' : Value} {t : Str} (h : Text v t) (h' : Text v' t) : v = v' := text_unique h h'

theorem units_cancel {c d : Char} {x y : List Nat} (h : units c.toNat ++ x = units d.toNat ++ y) : c = d ∧ x = y := by
  have hc : c.toNat < 0xD800 ∨ 0xDFFF < c.toNat ∧ c.toNat < 0x110000 := c.valid
  have hd : d.toNat < 0xD800 ∨ 0xDFFF < d.toNat ∧ d.toNat < 0x110000 := d.valid
  unfold units at h
  split at h <;> split at h <;> simp only [List.cons_append, List.nil_append, List.cons.injEq] at h
  · exact ⟨char_ext h.1, h.2⟩
  · omega
  · omega
  · exact ⟨char_ext (by omega), h.2.2⟩

theorem units_ne (n : Nat) : units n ≠ [] := by
  unfold units
  split <;> simp

theorem chars_inj : ∀ {cs ds : List Char}, (cs.map Char.toNat).flatMap units = (ds.map Char.toNat).flatMap units → cs = ds
  | [], [], _ => rfl
  | [], d :: ds, h => by simp [units_ne] at h
  | c :: cs, [], h => by simp [units_ne] at h
  | c :: cs, d :: ds, h => by
    rw [List.map_cons, List.map_cons, List.flatMap_cons, List.flatMap_cons] at h
    obtain ⟨rfl, hr⟩ := units_cancel h
    rw [chars_inj hr]

theorem reading_inj {s s' : Str} (h : Utf8 s) (h' : Utf8 s') (he : reading s = reading s') : s = s' := by
  obtain ⟨cs, rfl⟩ := h
  obtain ⟨ds, rfl⟩ := h'
  unfold reading at he
  rw [runes_chars, runes_chars] at he
  rw [chars_inj he]

mutual
theorem means_inj {d d' : Datum} {v : Value} (h : Means d v) (h' : Means d' v) (hu : d.Utf8) (hu' : d'.Utf8) : d = d' := by
  match h with
  | .null => cases h'; rfl
  | .bool => cases h'; rfl
  | .num hn =>
    cases h' with
    | num hn' => rw [hn.2.2.2, hn'.2.2.2]
  | .str =>
    generalize hv : Value.str (reading _) = v at h'
    cases h' with
    | str =>
      rw [reading_inj hu hu' (by simpa using hv)]
    | _ => cases hv
  | .arr hl =>
    cases h' with
    | arr hl' => rw [meansAll_inj hl hl' hu hu']
  | .obj hl =>
    cases h' with
    | obj hl' => rw [meansFields_inj hl hl' hu hu']

theorem meansAll_inj {l l' : List Datum} {vs : List Value} (h : MeansAll l vs) (h' : MeansAll l' vs) (hu : Datum.Utf8All l)
    (hu' : Datum.Utf8All l') : l = l' := by
  match h with
  | .nil => cases h'; rfl
  | .cons hd hl =>
    cases h' with
    | cons hd' hl' => rw [means_inj hd hd' hu.1 hu'.1, meansAll_inj hl hl' hu.2 hu'.2]

theorem meansFields_inj {l l' : List (Str × Datum)} {ms : List (List Nat × Value)} (h : MeansFields l ms) (h' : MeansFields l' ms)
    (hu : Datum.Utf8Fields l) (hu' : Datum.Utf8Fields l') : l = l' := by
  match h with
  | .nil => cases h'; rfl
  | .cons hd hl =>
    generalize hm : (reading _, _) :: _ = ms at h'
    cases h' with
    | nil => cases hm
    | cons hd' hl' =>
      simp only [List.cons.injEq, Prod.mk.injEq] at hm
      obtain ⟨⟨hk, rfl⟩, rfl⟩ := hm
      rw [means_inj hd hd' hu.2.1 hu'.2.1, meansFields_inj hl hl' hu.2.2 hu'.2.2, reading_inj hu.1 hu'.1 hk]
end

/-- **C106** (what is said). A JSON text says one thing only, of all that can be said in UTF-8. -/
theorem C106_said_once {t : Str} {d d' : Datum} (h : Says t d) (h' : Says t d') (hu : d.Utf8) (hu' : d'.Utf8) : d = d' := by
  obtain ⟨v, hv, hm⟩ := h
  obtain ⟨v', hv', hm'⟩ := h'
  cases C106_unambiguous hv hv'
  exact means_inj hm hm' hu hu'

/-- No value is written as nothing. -/
theorem says_nil {d : Datum} : ¬ Says [] d := by
  rintro ⟨v, ⟨w, x, w', _, hx, _, he⟩, _⟩
  obtain ⟨b, r, rfl, _⟩ := written_first hx
  simp at he

/-! ### UTF-8 -/

theorem utf8_append {s t : Str} (h : Utf8 s) (h' : Utf8 t) : Utf8 (s ++ t) := by
  obtain ⟨cs, rfl⟩ := h
  obtain ⟨ds, rfl⟩ := h'
  exact ⟨cs ++ ds, by simp⟩

theorem utf8_ascii : ∀ {s : Str}, Go.Ascii s → Utf8 s
  | [], _ => ⟨[], rfl⟩
  | b :: s, h => by
    obtain ⟨c, _, hc⟩ := encode_ascii (h b (by simp))
    exact utf8_append (s := [b]) ⟨[c], by simp [hc]⟩ (utf8_ascii fun x hx => h x (by simp [hx]))

/-! ### The messages -/

mutual
theorem value_written {space : Bool} {j : JVal} {t : Str} (h : field space j = some t) :
    ∃ v, Written v t ∧ Means (Datum.ofJVal j) v := by
  have hs : ∃ sep, comma space = 44 :: sep ∧ Ws sep := by
    cases space
    · exact ⟨[], rfl, ws_nil⟩
    · exact ⟨[32], rfl, by simp [Ws]⟩
  obtain ⟨sep, hsep, hws⟩ := hs
  match j with
  | .null => cases h; exact ⟨_, .null, .null⟩
  | .bool b =>
    cases h
    refine ⟨.bool b, ?_, .bool⟩
    cases b
    · exact .false
    · exact .true
  | .str s =>
    obtain ⟨x, rfl, hx⟩ := pquote_chars h
    exact ⟨_, .str hx, .str⟩
  | .strs l =>
    unfold field strs at h
    cases hm : l.mapM pquote with
    | none => rw [hm] at h; cases h
    | some r =>
      rw [hm] at h
      cases h
      have key : ∀ (l r : List Str), l.mapM pquote = some r → ∃ vs, Along Written vs r ∧ MeansAll (l.map .str) vs := by
        intro l
        induction l with
        | nil =>
          intro r h
          cases h
          exact ⟨[], .nil, .nil⟩
        | cons s l ih =>
          intro r h
          obtain ⟨y, r', hy, hr', rfl⟩ := mapM_cons_some h
          obtain ⟨vs, h1, h2⟩ := ih r' hr'
          obtain ⟨x, rfl, hx⟩ := pquote_chars hy
          exact ⟨_ :: vs, .cons (.str hx) h1, .cons .str h2⟩
      obtain ⟨vs, h1, h2⟩ := key l r hm
      rw [hsep]
      refine ⟨_, written_arr hws h1, ?_⟩
      unfold Datum.ofJVal
      exact .arr h2
  | .msg l =>
    unfold field at h
    cases hm : Json.members space l with
    | none => rw [hm] at h; cases h
    | some r =>
      rw [hm] at h
      cases h
      obtain ⟨ms, h1, h2⟩ := members_written hm
      rw [hsep]
      refine ⟨_, written_obj hws h1, ?_⟩
      unfold Datum.ofJVal
      exact .obj h2
  | .other => cases h

theorem members_written {space : Bool} {l : List (Str × JVal)} {r : List Str} (h : Json.members space l = some r) :
    ∃ ms, Along (fun (m : List Nat × Value) (t : Str) => ∃ x y, t = 34 :: x ++ [34] ++ 58 :: y ∧ Chars m.1 x ∧ Written m.2 y) ms r ∧
      MeansFields (Datum.ofMembers l) ms := by
  match l with
  | [] =>
    cases h
    exact ⟨[], .nil, by unfold Datum.ofMembers; exact .nil⟩
  | (k, v) :: l =>
    unfold Json.members at h
    split at h
    · rename_i k' v' l' hk hv hl
      cases h
      obtain ⟨x, rfl, hx⟩ := pquote_chars hk
      obtain ⟨w, hw, hmw⟩ := value_written hv
      obtain ⟨ms, h1, h2⟩ := members_written hl
      exact ⟨(reading k, w) :: ms, .cons ⟨x, v', rfl, hx, hw⟩ h1, by unfold Datum.ofMembers; exact .cons hmw h2⟩
    · cases h
end

mutual
/-- Every value of the messages, with the strings in UTF-8, can be written. -/
def Writable : JVal → Prop
  | .str s => Utf8 s
  | .strs l => ∀ s ∈ l, Utf8 s
  | .msg l => WritableAll l
  | .other => False
  | _ => True

def WritableAll : List (Str × JVal) → Prop
  | [] => True
  | (k, v) :: l => Utf8 k ∧ Writable v ∧ WritableAll l
end

mutual
theorem value_some {space : Bool} {j : JVal} (h : Writable j) : ∃ t, field space j = some t := by
  match j with
  | .null => exact ⟨_, rfl⟩
  | .bool b => exact ⟨_, rfl⟩
  | .str s => unfold Writable at h; exact pquote_some.2 h
  | .strs l =>
    unfold Writable at h
    obtain ⟨r, hr⟩ := mapM_some (f := pquote) (l := l) fun s hs => pquote_some.2 (h s hs)
    exact ⟨_, by unfold field strs; rw [hr]; rfl⟩
  | .msg l =>
    unfold Writable at h
    obtain ⟨r, hr⟩ := members_some (space := space) h
    exact ⟨_, by unfold field; rw [hr]; rfl⟩
  | .other => unfold Writable at h; exact h.elim

theorem members_some {space : Bool} {l : List (Str × JVal)} (h : WritableAll l) : ∃ r, Json.members space l = some r := by
  match l with
  | [] => exact ⟨[], by unfold Json.members; rfl⟩
  | (k, v) :: l =>
    unfold WritableAll at h
    obtain ⟨k', hk⟩ := pquote_some.2 h.1
    obtain ⟨v', hv⟩ := value_some (space := space) h.2.1
    obtain ⟨l', hl⟩ := members_some (space := space) h.2.2
    exact ⟨_, by unfold Json.members; rw [hk, hv, hl]⟩
end

theorem message_says {space : Bool} {l : List (Str × JVal)} (h : WritableAll l) :
    ∃ t, message space l = some t ∧ Says t (.obj (Datum.ofMembers l)) := by
  obtain ⟨t, ht⟩ := value_some (space := space) (j := .msg l) (by unfold Writable; exact h)
  obtain ⟨v, hv, hm⟩ := value_written ht
  unfold Datum.ofJVal at hm
  exact ⟨t, ht, says_of ⟨v, hv, hm⟩⟩

/-! ### The answers -/

theorem codes_ascii (c : ErrCode) : Go.Ascii (codeText c) ∧ Go.Ascii (description c) := by
  cases c <;> exact ⟨by decide +kernel, by decide +kernel⟩

/-- **C106_partial** (errors). The body of an error answer says the code, the description and the state,
in every build of the JSON library, if the state is UTF-8. -/
theorem C106_error_partial (space : Bool) (e : OErr) (h : ∀ s, e.state = some s → Utf8 s) :
    Says (errorText space e) (.obj (errorMembers e)) := by
  have hw : WritableAll (errorBody e) ∧ Datum.ofMembers (errorBody e) = errorMembers e := by
    obtain ⟨c, s⟩ := e
    have hc := utf8_ascii (codes_ascii c).1
    have hd := utf8_ascii (codes_ascii c).2
    have k1 : Utf8 g!"err" := utf8_ascii (by decide)
    have k2 : Utf8 g!"error_description" := utf8_ascii (by decide)
    have k3 : Utf8 g!"state" := utf8_ascii (by decide)
    cases s with
    | none =>
      refine ⟨?_, by simp [errorBody, build, Error.toJson, Datum.ofMembers, Datum.ofJVal, errorMembers]⟩
      simp [errorBody, build, Error.toJson, WritableAll, Writable, k1, k2, hc, hd]
    | some s =>
      refine ⟨?_, by simp [errorBody, build, Error.toJson, Datum.ofMembers, Datum.ofJVal, errorMembers]⟩
      simp [errorBody, build, Error.toJson, WritableAll, Writable, k1, k2, k3, hc, hd, h s rfl]
  obtain ⟨t, ht, hs⟩ := message_says (space := space) hw.1
  rw [hw.2] at hs
  unfold errorText
  rw [ht]
  exact hs

/-- **C106_violated** (errors). With a state that is not UTF-8 the body of the error answer is
empty, which says nothing. -/
theorem C106_error_violated (space : Bool) (c : ErrCode) {s : Str} (h : ¬ Utf8 s) :
    errorText space ⟨c, some s⟩ = [] ∧ ∀ d, ¬ Says (errorText space ⟨c, some s⟩) d := by
  have hn : pquote s = none := by
    cases hp : pquote s with
    | none => rfl
    | some t => exact absurd (pquote_some.1 ⟨t, hp⟩) h
  have : errorText space ⟨c, some s⟩ = [] := by
    have hm : message space (errorBody ⟨c, some s⟩) = none := by
      have hl : Json.members space (errorBody ⟨c, some s⟩) = none := by
        show Json.members space [(g!"err", .str (codeText c)), (g!"error_description", .str (description c)), (g!"state", .str s)] = none
        simp [Json.members, field, hn]
      unfold message field
      rw [hl]
      rfl
    unfold errorText
    rw [hm]
    rfl
  exact ⟨this, fun d => this ▸ says_nil⟩

theorem written_uint {n : Nat} (h : n < 2 ^ 64) : ∃ v, Written v (uint n) ∧ Means (.num n) v := by
  have hd : Decimal (uint n) n := decimal_of h
  refine ⟨.num (uint n), .num ?_, .num hd⟩
  obtain ⟨hne, hall, hz, _⟩ := hd
  refine ⟨[], uint n, [], [], by simp, .inl rfl, ?_, .inl rfl, .inl rfl⟩
  rcases hz with hz | hz
  · exact .inl hz
  · obtain ⟨b, r, hb⟩ := List.exists_cons_of_ne_nil hne
    rw [hb] at hall hz
    have h1 := hall b (by simp)
    refine .inr ⟨b, r, hb, ?_, h1.2, fun x hx => hall x (by simp [hx])⟩
    have hn : b ≠ 48 := fun h => hz (by simp [h])
    have h2 : 48 ≤ b.toNat := UInt8.le_iff_toNat_le.1 h1.1
    have h3 : b.toNat ≠ 48 := fun h => hn (UInt8.toNat_inj.1 h)
    exact UInt8.le_iff_toNat_le.2 (by show 49 ≤ b.toNat; omega)

theorem Rows.str {k s : Str} {l : List (Str × Datum)} {ts : List (Str × Str)} (h : Rows l ts) :
    Rows ((k, .str s) :: l) ((k, quote s) :: ts) := .cons (written_quote s) .str h

theorem Rows.num {k : Str} {n : Nat} (hn : n < 2 ^ 64) {l : List (Str × Datum)} {ts : List (Str × Str)} (h : Rows l ts) :
    Rows ((k, .num n) :: l) ((k, uint n) :: ts) := by
  obtain ⟨v, hv, hm⟩ := written_uint hn
  exact .cons hv hm h

theorem Rows.bool {k : Str} {b : Bool} {l : List (Str × Datum)} {ts : List (Str × Str)} (h : Rows l ts) :
    Rows ((k, .bool b) :: l) ((k, Json.bool b) :: ts) := by
  refine .cons (v := .bool b) ?_ .bool h
  cases b
  · exact .false
  · exact .true

theorem tokens_says (b : TokenBody) (h : b.expiresIn < 2 ^ 64) : Says (tokensText b) (.obj (tokenMembers b)) := by
  refine says_of (object_written ?_)
  unfold tokenMembers
  refine .append (.append (Rows.str (Rows.num h (Rows.str .nil))) ?_) (Rows.str .nil)
  split
  · exact .nil
  · exact Rows.str .nil

theorem active_says (space : Bool) (b : ActiveBody) (h : Fits (.introspection (some b))) (hk : ThumbUtf8 (.introspection (some b))) :
    ∃ t, activeText space b = some t ∧ Says t (.obj (activeMembers b)) := by
  obtain ⟨h1, h2, h3, h4⟩ := h
  have ha : Rows ((b.acr.map fun s => (g!"acr", Datum.str s)).toList) ((b.acr.map fun s => (g!"acr", quote s)).toList) := by
    cases b.acr with
    | none => exact .nil
    | some s => exact Rows.str .nil
  have ht : Rows ((b.authTime.map fun n => (g!"auth_time", Datum.num n)).toList) ((b.authTime.map fun n => (g!"auth_time", uint n)).toList) := by
    cases hb : b.authTime with
    | none => exact .nil
    | some n => exact Rows.num (h4 n hb) .nil
  have hc : ∃ ts, cnfText space b.cnf = some ts ∧
      Rows ((b.cnf.map fun k => (g!"cnf", Datum.obj [(g!"jkt", .str k.jkt)])).toList) ts := by
    cases hb : b.cnf with
    | none => exact ⟨[], rfl, .nil⟩
    | some k =>
      have kj : Utf8 g!"jkt" := utf8_ascii (by decide)
      obtain ⟨t, ht⟩ := value_some (space := space) (j := .msg [(g!"jkt", .str k.jkt)])
        (by simp [Writable, WritableAll, kj, hk k hb])
      obtain ⟨v, hv, hm⟩ := value_written ht
      simp only [Datum.ofJVal, Datum.ofMembers] at hm
      refine ⟨[(g!"cnf", t)], ?_, .cons hv hm .nil⟩
      unfold cnfText message
      simp only [ht]
      rfl
  obtain ⟨ts, hts, hr⟩ := hc
  refine ⟨_, by unfold activeText; rw [hts]; rfl, says_of (object_written ?_)⟩
  exact .append (.append (.append (.append (.append ha (Rows.bool (Rows.str .nil))) ht) (Rows.str .nil)) hr)
    (Rows.num h1 (Rows.num h2 (Rows.str (Rows.str (Rows.num h3 (Rows.str (Rows.str (Rows.str .nil))))))))

/-- **C106_partial** (answers). Every JSON answer of the server is a JSON text that says exactly the
members the specifications define, whatever bytes the strings other than the thumbprint consist of; and the answers that
are not JSON have no such text. -/
theorem C106_answers_partial (space : Bool) (b : Body) (h : Fits b) (hk : ThumbUtf8 b) :
    match bodyText space b, answer b with
    | some t, some d => Says t d
    | none, none => True
    | _, _ => False := by
  cases b with
  | error c => exact C106_error_partial space ⟨c, none⟩ (by simp)
  | tokens b => exact tokens_says b h
  | introspection b =>
    cases b with
    | none => exact says_of (object_written (Rows.bool .nil))
    | some b =>
      obtain ⟨t, ht, hs⟩ := active_says space b h hk
      simp only [bodyText, answer, introspectionText, ht]
      exact hs
  | device dc uc page e i => exact says_of (object_written (Rows.str (Rows.str (Rows.str (Rows.num h.1 (Rows.num h.2 .nil))))))
  | par i u n => exact says_of (object_written (Rows.str (Rows.str (Rows.num h .nil))))
  | empty => trivial
  | authorization u d c => trivial
  | form => trivial

/-- **C106_violated** (answers). An active token whose key thumbprint is not UTF-8 is answered
with an empty body. -/
theorem C106_thumb_violated (space : Bool) (b : ActiveBody) {k : Cnf} (hb : b.cnf = some k) (h : ¬ Utf8 k.jkt) :
    bodyText space (.introspection (some b)) = some [] := by
  have hn : pquote k.jkt = none := by
    cases hp : pquote k.jkt with
    | none => rfl
    | some t => exact absurd (pquote_some.1 ⟨t, hp⟩) h
  simp [bodyText, introspectionText, activeText, cnfText, hb, message, field, Json.members, hn, orEmpty]

/-- The strings of an answer are UTF-8. -/
def AnswerUtf8 (b : Body) : Prop := ∀ d, answer b = some d → d.Utf8

theorem answer_inj {b b' : Body} {d : Datum} (h : answer b = some d) (h' : answer b' = some d) : b = b' := by
  have he : answer b = answer b' := h.trans h'.symm
  have hs : (answer b).isSome = true := by rw [h]; rfl
  clear h h'
  rcases b with _ | c | ⟨at1, ex, ty, rt, sc⟩ | (_ | ⟨sc, ci, ex, ia, nb, su, au, is, jt, ty, _ | ⟨⟨k⟩⟩, _ | ac, _ | tm⟩) | _ | _ | _ | _ <;>
  rcases b' with _ | c' | ⟨at2, ex', ty', rt', sc'⟩ | (_ | ⟨sc', ci', ex', ia', nb', su', au', is', jt', ty', _ | ⟨⟨k'⟩⟩, _ | ac', _ | tm'⟩) | _ | _ | _ | _
  all_goals simp [answer, errorMembers, tokenMembers, activeMembers, deviceMembers, parMembers] at he hs ⊢
  · exact codeText_inj he.1
  · refine ⟨he.1, he.2.1, he.2.2.1, ?_, he.2.2.2.2⟩
    have hr := he.2.2.2.1
    by_cases h1 : rt = [] <;> by_cases h2 : rt' = [] <;> simp_all
  all_goals simp_all

/-- **C106_partial** (telling answers apart). Two answers in UTF-8 with the same text are the same
answer: of the same kind, with the same tokens, scopes, times and identifiers. -/
theorem C106_faithful_partial {space space' : Bool} {b b' : Body} {t : Str} (ht : bodyText space b = some t)
    (ht' : bodyText space' b' = some t) (h : Fits b) (h' : Fits b') (hk : ThumbUtf8 b) (hk' : ThumbUtf8 b') (hu : AnswerUtf8 b) (hu' : AnswerUtf8 b') : b = b' := by
  have h1 := C106_answers_partial space b h hk
  have h2 := C106_answers_partial space' b' h' hk'
  rw [ht] at h1
  rw [ht'] at h2
  cases hd : answer b with
  | none => rw [hd] at h1; exact h1.elim
  | some d =>
    cases hd' : answer b' with
    | none => rw [hd'] at h2; exact h2.elim
    | some d' =>
      rw [hd] at h1
      rw [hd'] at h2
      cases C106_said_once h1 h2 (hu d hd) (hu' d' hd')
      exact answer_inj hd hd'

/-- **C106_violated** (telling answers apart). Strings that are not UTF-8 are written as others:
two different scopes in the same words. -/
theorem C106_faithful_violated (space : Bool) (b : TokenBody) :
    bodyText space (.tokens { b with scope := [0xFF] }) = bodyText space (.tokens { b with scope := [0xFE] }) ∧
    Body.tokens { b with scope := [0xFF] } ≠ .tokens { b with scope := [0xFE] } := by
  have hq : quote [0xFF] = quote [0xFE] := by decide +kernel
  refine ⟨?_, by simp⟩
  show some (tokensText _) = some (tokensText _)
  unfold tokensText
  simp only [hq]

/-! ### Markup -/

/-- Nothing that a browser could take for markup. -/
def NoMarkup (t : Str) : Prop := ∀ b ∈ t, b ≠ 60 ∧ b ≠ 62 ∧ b ≠ 38

theorem noMarkup_append {s t : Str} (h : NoMarkup s) (h' : NoMarkup t) : NoMarkup (s ++ t) := by
  intro b hb
  rcases List.mem_append.1 hb with hb | hb
  · exact h b hb
  · exact h' b hb

theorem noMarkup_hex {n : Nat} (h : n < 16) : NoMarkup [hex n] := by
  have key : ∀ n : Fin 16, hex n ≠ 60 ∧ hex n ≠ 62 ∧ hex n ≠ 38 := by decide
  intro b hb
  rw [List.mem_singleton.1 hb]
  exact key ⟨n, h⟩

theorem noMarkup_lit {t : Str} (h : (t.all fun b => b != 60 && b != 62 && b != 38) = true) : NoMarkup t := by
  intro b hb
  have := List.all_eq_true.1 h b hb
  simpa [and_assoc] using this

theorem noMarkup_quote (s : Str) : NoMarkup (quote s) := by
  have hp : ∀ x ∈ Go.chunks s, NoMarkup (piece x) := by
    intro x hx
    rcases chunk_cases hx with ⟨c, rfl⟩ | ⟨b, rfl, hb⟩
    · obtain ⟨b, r, he, k1, k2⟩ := encode_head c
      by_cases hc : c.toNat < 0x80
      · obtain ⟨kb, rfl⟩ := k1 hc
        have hb : b < 0x80 := UInt8.lt_iff_toNat_lt.2 (by rw [kb]; exact hc)
        rw [he]
        unfold piece
        simp only [hb, if_true]
        split
        · rename_i hs
          simp only [htmlSafe, Bool.and_eq_true, decide_eq_true_eq] at hs
          intro x hx
          rw [List.mem_singleton.1 hx]
          exact ⟨hs.1.1.2, hs.1.2, hs.1.1.1.2⟩
        · split
          · rename_i h
            rcases h with rfl | rfl <;> exact noMarkup_lit rfl
          · split
            · exact noMarkup_lit rfl
            · split
              · exact noMarkup_lit rfl
              · split
                · exact noMarkup_lit rfl
                · exact noMarkup_append (noMarkup_lit rfl)
                    (noMarkup_append (s := [_]) (noMarkup_hex (by omega)) (noMarkup_hex (by omega)))
      · have k := k2 (by omega)
        have hbig : NoMarkup (String.utf8EncodeChar c) := by
          intro x hx
          have hx' : 0x80 ≤ x.toNat := by
            rw [he] at hx
            rcases List.mem_cons.1 hx with rfl | hx
            · exact k.1
            · exact k.2.2 x hx
          refine ⟨?_, ?_, ?_⟩ <;> rintro rfl <;> exact absurd hx' (by decide)
        obtain ⟨b', r', rfl⟩ := List.exists_cons_of_ne_nil k.2.1
        have hpc : piece (String.utf8EncodeChar c) = if c.toNat = 0x2028 ∨ c.toNat = 0x2029 then g!"\\u202" ++ [hex (c.toNat % 16)]
            else String.utf8EncodeChar c := by
          rw [← runeOf_encode c, he]
          rfl
        rw [hpc]
        split
        · exact noMarkup_append (noMarkup_lit rfl) (noMarkup_hex (by omega))
        · exact hbig
    · rw [show piece [b] = g!"\\ufffd" from if_neg hb]
      exact noMarkup_lit rfl
  refine noMarkup_append (s := 34 :: _) ?_ (noMarkup_lit rfl)
  refine noMarkup_append (s := [34]) (noMarkup_lit rfl) ?_
  intro b hb
  obtain ⟨x, hx, hb⟩ := List.mem_flatMap.1 hb
  exact hp x hx b hb

theorem noMarkup_uint (n : Nat) : NoMarkup (uint n) := by
  intro b hb
  have := RequestObject.digits_all b hb
  simp only [RequestObject.isDigit, Bool.and_eq_true, decide_eq_true_eq] at this
  have h2 : b.toNat ≤ 57 := UInt8.le_iff_toNat_le.1 this.2
  have h1 : 48 ≤ b.toNat := UInt8.le_iff_toNat_le.1 this.1
  refine ⟨?_, ?_, ?_⟩ <;> rintro rfl
  · exact absurd h2 (by decide)
  · exact absurd h2 (by decide)
  · exact absurd h1 (by decide)

theorem noMarkup_object {l : List (Str × Str)} (h : ∀ m ∈ l, NoMarkup m.2) : NoMarkup (object l) := by
  have hc : ∀ ts : List Str, (∀ t ∈ ts, NoMarkup t) → NoMarkup (commas [44] ts) := by
    intro ts
    induction ts with
    | nil => exact fun _ => noMarkup_lit rfl
    | cons t ts ih =>
      intro h
      cases ts with
      | nil => exact h t (by simp)
      | cons t' ts =>
        exact noMarkup_append (noMarkup_append (h t (by simp)) (noMarkup_lit rfl)) (ih fun x hx => h x (by simp [hx]))
  refine noMarkup_append (s := 123 :: _) ?_ (noMarkup_lit rfl)
  refine noMarkup_append (s := [123]) (noMarkup_lit rfl) (hc _ fun t ht => ?_)
  obtain ⟨m, hm, rfl⟩ := List.mem_map.1 ht
  exact noMarkup_append (noMarkup_quote m.1) (noMarkup_append (s := [58]) (noMarkup_lit rfl) (h m hm))

/-- **C106_partial** (markup). No token, device or request answer contains a character of HTML markup,
whatever the client sent, and neither does an introspection answer about a token that is bound
to no key. -/
theorem C106_no_markup_partial (space : Bool) (b : Body) (hb : match b with
      | .tokens _ | .device .. | .par .. | .introspection none => True
      | .introspection (some a) => a.cnf = none
      | _ => False) :
    ∃ t, bodyText space b = some t ∧ t ≠ [] ∧ NoMarkup t := by
  have hne : ∀ l, object l ≠ [] := fun l => by simp [object]
  cases b with
  | tokens b =>
    refine ⟨_, rfl, hne _, noMarkup_object ?_⟩
    intro m hm
    simp only [List.mem_append, List.mem_cons, List.not_mem_nil, or_false] at hm
    rcases hm with ((rfl | rfl | rfl) | hm) | rfl
    · exact noMarkup_quote _
    · exact noMarkup_uint _
    · exact noMarkup_quote _
    · split at hm
      · cases hm
      · rw [List.mem_singleton.1 hm]
        exact noMarkup_quote _
    · exact noMarkup_quote _
  | introspection b =>
    cases b with
    | none => exact ⟨object [(g!"active", Json.bool false)], rfl, hne _, noMarkup_lit (by decide +kernel)⟩
    | some b =>
      simp only at hb
      have ht : ∃ l, activeText space b = some (object l) ∧ l = (b.acr.map fun s => (g!"acr", quote s)).toList ++
          [(g!"active", Json.bool true), (g!"aud", quote b.aud)] ++ (b.authTime.map fun n => (g!"auth_time", uint n)).toList ++
          [(g!"client_id", quote b.clientId)] ++ [] ++
          [(g!"exp", uint b.exp), (g!"iat", uint b.iat), (g!"iss", quote b.iss), (g!"jti", quote b.jti), (g!"nbf", uint b.nbf),
           (g!"scope", quote b.scope), (g!"sub", quote b.sub), (g!"token_type", quote b.tokenType)] :=
        ⟨_, by unfold activeText; rw [hb]; rfl, rfl⟩
      obtain ⟨l, ht, hl⟩ := ht
      refine ⟨object l, by simp only [bodyText, introspectionText, ht, orEmpty, Option.getD_some], hne _, noMarkup_object ?_⟩
      rw [hl]
      intro m hm
      simp only [List.mem_append, List.mem_cons, List.not_mem_nil, or_false] at hm
      rcases hm with ((((hm | rfl | rfl) | hm) | rfl)) | rfl | rfl | rfl | rfl | rfl | rfl | rfl | rfl
      · obtain ⟨s, _, rfl⟩ := Option.map_eq_some_iff.1 (Option.mem_toList.1 hm)
        exact noMarkup_quote _
      · exact noMarkup_lit rfl
      · exact noMarkup_quote _
      · obtain ⟨s, _, rfl⟩ := Option.map_eq_some_iff.1 (Option.mem_toList.1 hm)
        exact noMarkup_uint _
      all_goals first | exact noMarkup_quote _ | exact noMarkup_uint _
  | device dc uc page e i =>
    refine ⟨_, rfl, hne _, noMarkup_object ?_⟩
    intro m hm
    simp only [List.mem_cons, List.not_mem_nil, or_false] at hm
    rcases hm with rfl | rfl | rfl | rfl | rfl <;> first | exact noMarkup_quote _ | exact noMarkup_uint _
  | par i u n =>
    refine ⟨_, rfl, hne _, noMarkup_object ?_⟩
    intro m hm
    simp only [List.mem_cons, List.not_mem_nil, or_false] at hm
    rcases hm with rfl | rfl | rfl <;> first | exact noMarkup_quote _ | exact noMarkup_uint _
  | _ => exact hb.elim

/-- **C106_violated** (markup). Error answers give the state back as it is. -/
theorem C106_error_markup_violated (space : Bool) (c : ErrCode) :
    ∃ x y, errorText space ⟨c, some g!"<script>"⟩ = x ++ g!"<script>" ++ y := by
  have h : g!"<script>\"}" <:+ errorText space ⟨c, some g!"<script>"⟩ := by
    cases space <;> cases c <;> decide +kernel
  obtain ⟨x, hx⟩ := h
  exact ⟨x, g!"\"}", by rw [← hx]; simp⟩

/-! ### Metadata -/

/-- **C106** (metadata). The metadata document is a JSON text that says exactly the members of
the server description, each once, and the client library reads that description out of them. -/
theorem C106_metadata (space : Bool) {issuer s : Str} (h : Utf8 issuer) (hs : Utf8 s) :
    Says (metadataText space (current issuer s)) (.obj (Datum.ofMembers (ServerMetadata.toJson (current issuer s)))) ∧
    ((ServerMetadata.toJson (current issuer s)).map (·.1)).Nodup ∧
    ServerMetadata.ofJson (ServerMetadata.toJson (current issuer s)) = some (current issuer s) := by
  have hi : ∀ t : Str, Go.Ascii t → Utf8 (issuer ++ t) := fun t ht => utf8_append h (utf8_ascii ht)
  have hl : ∀ l : List Str, (l.all fun s => s.all fun b => decide (b < 0x80)) = true → Writable (.strs l) := by
    intro l hl
    unfold Writable
    intro s hs
    refine utf8_ascii fun b hb => ?_
    simpa using List.all_eq_true.1 (List.all_eq_true.1 hl s hs) b hb
  have hw : WritableAll (ServerMetadata.toJson (current issuer s)) := by
    unfold ServerMetadata.toJson
    repeat' first
      | exact trivial
      | (unfold WritableAll; refine ⟨utf8_ascii (by decide), ?_, ?_⟩)
    all_goals first
      | (apply hl; simp only [current, metadata]; decide +kernel)
      | (unfold Writable; first | exact h | exact hs | exact hi _ (by decide) | exact utf8_ascii (s := []) (by decide))
  obtain ⟨t, ht, hd⟩ := message_says (space := space) hw
  refine ⟨?_, ?_, metadata_roundtrip _ rfl⟩
  · unfold metadataText
    rw [ht]
    exact hd
  · have : (ServerMetadata.toJson (current issuer s)).map (·.1) = (ServerMetadata.toJson {}).map (·.1) := rfl
    rw [this]
    decide +kernel

/-! ### Examples -/

/-- The text of a token answer, and of an active token that is bound to a key. -/
example : tokensText ⟨g!"a<b", 3600, g!"Bearer", [], g!"openid \"x\" é"⟩ =
    g!"{\"access_token\":\"a\\u003cb\",\"expires_in\":3600,\"token_type\":\"Bearer\",\"scope\":\"openid \\\"x\\\" é\"}" := by
  decide +kernel

example : introspectionText true (some ⟨g!"s", g!"c", 20, 10, 10, g!"u", g!"a", g!"i", g!"j", g!"DPoP", some ⟨g!"k"⟩, none, some 5⟩) =
    g!"{\"active\":true,\"aud\":\"a\",\"auth_time\":5,\"client_id\":\"c\",\"cnf\":{\"jkt\":\"k\"},\"exp\":20,\"iat\":10,\"iss\":\"i\",\"jti\":\"j\",\"nbf\":10,\"scope\":\"s\",\"sub\":\"u\",\"token_type\":\"DPoP\"}" := by
  decide +kernel

/-- An error answer where the library writes spaces. -/
example : errorText true ⟨.accessDenied, some g!"<1>"⟩ =
    g!"{\"err\":\"access_denied\", \"error_description\":\"The authorization request was denied.\", \"state\":\"<1>\"}" := by
  decide +kernel

/-- The hypotheses of C106_answers_partial and C106_faithful_partial are met. -/
example : Fits (.tokens ⟨g!"at", 3600, g!"Bearer", g!"rt", g!"openid"⟩) ∧ ThumbUtf8 (.tokens ⟨g!"at", 3600, g!"Bearer", g!"rt", g!"openid"⟩) ∧
    AnswerUtf8 (.tokens ⟨g!"at", 3600, g!"Bearer", g!"rt", g!"openid"⟩) := by
  refine ⟨(by decide : 3600 < 2 ^ 64), trivial, ?_⟩
  intro d hd
  cases hd
  refine ⟨utf8_ascii (by decide), utf8_ascii (by decide), utf8_ascii (by decide), trivial, ?_⟩
  exact ⟨utf8_ascii (by decide), utf8_ascii (by decide), utf8_ascii (by decide), utf8_ascii (by decide), utf8_ascii (by decide),
    utf8_ascii (by decide), trivial⟩

/-- There are strings that are not UTF-8, and texts beyond ASCII that are. -/
example : ¬ Utf8 [0xFF] ∧ Utf8 g!"é😀" := by
  refine ⟨fun h => ?_, ⟨['é', '😀'], by decide +kernel⟩⟩
  obtain ⟨t, ht⟩ := pquote_some.2 h
  have : pquote [0xFF] = none := by decide +kernel
  rw [this] at ht
  cases ht

/-- The grammar is wider than what the server writes: white space, escapes and fractions. -/
example : Text (.obj [([97], .num g!"-1.5e+3")]) g!" { \"\\u0061\" : -1.5e+3 }" := by
  refine ⟨g!" ", g!"{ \"\\u0061\" : -1.5e+3 }", [], by decide, ?_, by decide, rfl⟩
  refine Written.obj (t := g!" \"\\u0061\" : -1.5e+3 ") ?_
  refine Members.one (w1 := g!" ") (s := g!"\\u0061") (w2 := g!" ") (w3 := g!" ") (t := g!"-1.5e+3") (w4 := g!" ") (by decide) ?_
    (by decide) (by decide) ?_ (by decide)
  · exact Chars.hex 48 48 54 49 0 0 6 1 (by decide) (by decide) (by decide) (by decide) .nil
  · exact .num ⟨g!"-", g!"1", g!".5", g!"e+3", rfl, .inr rfl, .inr ⟨49, [], rfl, by decide, by decide, by decide⟩,
      .inr ⟨g!"5", rfl, by decide, by decide⟩, .inr ⟨101, g!"+", g!"3", rfl, .inl rfl, .inr (.inl rfl), by decide, by decide⟩⟩

/-- Both sides of C106_said_once are met by different texts of the same datum. -/
example : Says g!"true" (.bool true) ∧ (Datum.bool true).Utf8 :=
  ⟨⟨.bool true, ⟨[], _, [], by decide, .true, by decide, rfl⟩, .bool⟩, trivial⟩

end Verif.Props
