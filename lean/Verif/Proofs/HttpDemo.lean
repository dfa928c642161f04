import Verif.Proofs.Demo
import Verif.Props.ClientAuth
import Verif.Model.Http

/-! Concrete servers and requests for the examples of the HTTP endpoints. -/
namespace Verif
open Verif.Prog Verif.Http

/-- A completed run with answers of a kind and a decidable property of trace and answer. -/
theorem Prog.oracle_run {α : Type} (ans : (c : Cmd) → c.Res) (p : Prog α) (W : Ev → Prop) (P : List Ev → α → Prop)
    [∀ tr a, Decidable (P tr a)] (hW : ∀ c, W ⟨c, ans c⟩)
    (h : (p.oracle ans).2.get?.any (fun a => decide (P (p.oracle ans).1 a)) = true) :
    ∃ tr a, p.Exec tr (.done a) ∧ (∀ ev ∈ tr, W ev) ∧ P tr a := by
  cases hg : (p.oracle ans).2.get? with
  | none => rw [hg] at h; simp at h
  | some a =>
    rw [hg] at h
    exact ⟨_, a, Prog.oracle_done ans p a hg, oracle_all ans hW p, by simpa using h⟩

/-- The same for a part of the answer. -/
theorem Prog.oracle_sel {α β : Type} (ans : (c : Cmd) → c.Res) (p : Prog α) (sel : α → Option β) (W : Ev → Prop)
    (P : List Ev → β → Prop) [∀ tr a, Decidable (P tr a)] (hW : ∀ c, W ⟨c, ans c⟩)
    (h : ((p.oracle ans).2.get?.bind sel).any (fun a => decide (P (p.oracle ans).1 a)) = true) :
    ∃ tr a b, p.Exec tr (.done a) ∧ (∀ ev ∈ tr, W ev) ∧ sel a = some b ∧ P tr b := by
  cases hg : (p.oracle ans).2.get? with
  | none => rw [hg] at h; simp at h
  | some a =>
    rw [hg] at h
    cases hb : sel a with
    | none => simp [hb] at h
    | some b => exact ⟨_, a, b, Prog.oracle_done ans p a hg, oracle_all ans hW p, hb, by simpa [hb] using h⟩

/-- The tokens of a success answer. -/
def Http.Resp.tokens? (a : Http.Resp) : Option TokenBody :=
  match a with
  | ⟨200, .tokens b⟩ => some b
  | _ => none

theorem Http.Resp.tokens?_eq {a : Http.Resp} {b : TokenBody} (h : a.tokens? = some b) : a = ⟨200, .tokens b⟩ := by
  unfold Http.Resp.tokens? at h
  split at h
  · cases h; rfl
  · cases h

def Outcome.isPanic {α : Type} : Outcome α → Bool
  | .panicked => true
  | _ => false

/-- A crashing run with answers of a kind. -/
theorem Prog.oracle_crash {α : Type} (ans : (c : Cmd) → c.Res) (p : Prog α) (W : Ev → Prop) (hW : ∀ c, W ⟨c, ans c⟩)
    (h : (p.oracle ans).2.isPanic = true) : ∃ tr, p.Exec tr .panicked ∧ ∀ ev ∈ tr, W ev := by
  have he := oracle_exec ans p
  cases ho : (p.oracle ans).2 with
  | panicked => rw [ho] at he; exact ⟨_, he, oracle_all ans hW p⟩
  | done a => rw [ho] at h; simp [Outcome.isPanic] at h
  | stopped => rw [ho] at h; simp [Outcome.isPanic] at h

/-- The tokens stored in a run. -/
def stored (tr : List Ev) : List Token :=
  tr.filterMap fun
    | ⟨.tkCreate _ t, .ok ()⟩ => some t
    | _ => none

theorem mem_stored {tr : List Ev} {t : Token} (h : t ∈ stored tr) : ∃ i, ⟨.tkCreate i t, .ok ()⟩ ∈ tr := by
  obtain ⟨ev, hm, he⟩ := List.mem_filterMap.1 h
  split at he
  · cases he; exact ⟨_, hm⟩
  · cases he

/-- The code sessions registered in a run. -/
def codeSessions (tr : List Ev) : List CodeSession :=
  tr.filterMap fun
    | ⟨.csReg _ _ s, .ok _⟩ => some s
    | _ => none

theorem mem_codeSessions {tr : List Ev} {s : CodeSession} (h : s ∈ codeSessions tr) :
    ∃ i c n, ⟨.csReg i c s, .ok n⟩ ∈ tr := by
  obtain ⟨ev, hm, he⟩ := List.mem_filterMap.1 h
  split at he
  · cases he; exact ⟨_, _, _, hm⟩
  · cases he

/-- The device sessions registered in a run. -/
def deviceSessions (tr : List Ev) : List DeviceSession :=
  tr.filterMap fun
    | ⟨.dsReg _ _ s, .ok _⟩ => some s
    | _ => none

theorem mem_deviceSessions {tr : List Ev} {s : DeviceSession} (h : s ∈ deviceSessions tr) :
    ∃ i c n, ⟨.dsReg i c s, .ok n⟩ ∈ tr := by
  obtain ⟨ev, hm, he⟩ := List.mem_filterMap.1 h
  split at he
  · cases he; exact ⟨_, _, _, hm⟩
  · cases he

namespace Demo

/-- Parameters given as a list. -/
def form (l : List (Str × Str)) : Str → Option Str := fun k => (l.find? (·.1 = k)).map (·.2)

/-- A request object is its own payload, signed with the key `gk`; it names the client `app`,
and `other-ro` names the client `other`. -/
def server : Server where
  E := env
  issuer := issuer
  P := Props.demoP
  requestParse s := some { payload := s, verifies := fun k => k.key == g!"gk" }
  requestDec s := if s = g!"ro" then some { request with responseMode := some g!"form_post.jwt" }
    else if s = g!"other-ro" then some { request with clientId := g!"other" } else none
  jarmSer c := some (g!"signed:" ++ c.code)
  pairHash _ s := g!"p:" ++ s
  pairSalt := g!"salt"

/-- The client of the examples with a key, as a public client unless it is `conf`. -/
def httpClient (id : Str) : Client :=
  { client with
    clientId := id, clientType := if id = g!"conf" then .confidential else .pub, jwks := g!"goodkeys",
    responseModes := [g!"query.jwt", g!"form_post.jwt"] }

def httpAnswers (c : Cmd) : c.Res :=
  match c with
  | .clientsGet id => .ok (some (httpClient id))
  | c => answers c

theorem httpAnswers_contract (c : Cmd) : Spec.StoreContract ⟨c, httpAnswers c⟩ := by
  cases c <;> simp [Spec.StoreContract, httpAnswers, answers]

/-- A code redemption of the public client `app`. -/
def httpCode : Http.Req where
  method := g!"POST"
  query := form [(g!"client_id", g!"app")]
  post := form [(g!"grant_type", g!"authorization_code"), (g!"code", g!"c0de"), (g!"redirect_uri", g!"https://app/cb"),
    (g!"code_verifier", verifier)]
  target := { host := g!"as", path := g!"/token" }

end Demo
end Verif
