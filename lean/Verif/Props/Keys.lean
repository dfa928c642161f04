import Verif.Spec.Jwk
import Verif.Model.Keys
import Verif.Model.Registry
import Verif.Proofs.JsonRead
import Verif.Proofs.KeyPairs
import Verif.Proofs.Lib
import Verif.Props.Json
import Verif.Props.Sign

/-!
C107: the keys the example servers publish, register and sign with.
-/
namespace Verif.Props
open Verif.Spec Verif.Spec.Json Verif.Spec.Jwk Verif.Json Verif.Keys

/-! ### Texts -/

theorem rows_opt (name s : Str) : Rows (if s = [] then [] else [(name, Datum.str s)]) (omitEmpty name s) := by
  unfold omitEmpty
  split
  · exact .nil
  · exact Rows.str .nil

theorem key_written (k : EcKey) :
    ∃ v, Written v (keyText k.pub) ∧ Means (.obj (publicMembers k.use k.kid k.alg k.x k.y)) v := by
  refine object_written ?_
  unfold publicMembers
  have := ((((((rows_opt g!"use" k.use).append (Rows.str (s := g!"EC") (k := g!"kty") .nil)).append (rows_opt g!"kid" k.kid)).append
    (Rows.str (s := g!"P-384") (k := g!"crv") .nil)).append (rows_opt g!"alg" k.alg)).append
    (Rows.str (k := g!"x") (s := Go.b64 k.x) (Rows.str (k := g!"y") (s := Go.b64 k.y) .nil))).append Rows.nil
  rw [List.append_nil] at this
  exact this

/-- **C107** (what is published). The set of public halves is a JSON text that says the members RFC 7517
and RFC 7518 define for them, whatever bytes the names consist of. -/
theorem C107_published (ks : List EcKey) :
    Says (setText (ks.map EcKey.pub)) (keySet (ks.map fun k => publicMembers k.use k.kid k.alg k.x k.y)) := by
  have key : ∃ vs, Along Written vs ((ks.map EcKey.pub).map keyText) ∧
      MeansAll ((ks.map fun k => publicMembers k.use k.kid k.alg k.x k.y).map .obj) vs := by
    induction ks with
    | nil => exact ⟨[], .nil, .nil⟩
    | cons k l ih =>
      obtain ⟨vs, h1, h2⟩ := ih
      obtain ⟨v, hv, hm⟩ := key_written k
      exact ⟨v :: vs, .cons hv h1, .cons hm h2⟩
  obtain ⟨vs, h1, h2⟩ := key
  exact says_of (object_written (.cons (written_arr ws_nil h1) (.arr h2) .nil))

theorem publicMembers_names (use kid alg x y : Str) :
    ∀ m ∈ publicMembers use kid alg x y, m.1 ∈ [g!"use", g!"kty", g!"kid", g!"crv", g!"alg", g!"x", g!"y"] := by
  have o : ∀ (c : Str) (e : Str × Datum) (m : Str × Datum), m ∈ (if c = [] then [] else [e]) → m.1 = e.1 := by
    intro c e m hm
    split at hm
    · simp at hm
    · rw [List.mem_singleton.1 hm]
  intro m hm
  unfold publicMembers at hm
  simp only [List.mem_append, List.mem_cons, List.not_mem_nil, or_false] at hm
  rcases hm with ((((hm | rfl) | hm) | rfl) | hm) | rfl | rfl
  · rw [o _ _ _ hm]; exact .head _
  · exact .tail _ (.head _)
  · rw [o _ _ _ hm]; exact .tail _ (.tail _ (.head _))
  · exact .tail _ (.tail _ (.tail _ (.head _)))
  · rw [o _ _ _ hm]; exact .tail _ (.tail _ (.tail _ (.tail _ (.head _))))
  · exact .tail _ (.tail _ (.tail _ (.tail _ (.tail _ (.head _)))))
  · exact .tail _ (.tail _ (.tail _ (.tail _ (.tail _ (.tail _ (.head _))))))

theorem lookup_none {α : Type} {l : List (Str × α)} {n : Str} (h : ∀ m ∈ l, m.1 ≠ n) : l.lookup n = none := by
  rw [List.lookup_eq_none_iff]
  intro p hp
  simpa using fun he => h p hp he.symm

/-- The members of a published key are public. -/
theorem publicMembers_public (use kid alg x y : Str) : IsPublic (publicMembers use kid alg x y) := by
  intro n hn
  refine lookup_none fun m hm he => ?_
  have h1 := publicMembers_names use kid alg x y m hm
  rw [he] at h1
  clear he hm
  revert n
  decide

theorem utf8Fields_of : ∀ {l : List (Str × Datum)}, (∀ m ∈ l, Utf8 m.1 ∧ m.2.Utf8) → Datum.Utf8Fields l
  | [], _ => by simp [Datum.Utf8Fields]
  | m :: l, h => by
    simp only [Datum.Utf8Fields]
    exact ⟨(h m (by simp)).1, (h m (by simp)).2, utf8Fields_of fun x hx => h x (by simp [hx])⟩

theorem publicMembers_utf8 {use kid alg : Str} (x y : Str) (h1 : Utf8 use) (h2 : Utf8 kid) (h3 : Utf8 alg) :
    Datum.Utf8Fields (publicMembers use kid alg x y) := by
  have hb : ∀ s : Str, Utf8 (Go.b64 s) := by
    intro s
    refine utf8_ascii fun b hb => ?_
    rw [Go.b64_eq] at hb
    obtain ⟨n, hn, rfl⟩ := List.mem_map.1 hb
    have := Go.b64Nums_lt s n hn
    clear hn hb
    revert n
    decide
  have a : ∀ s : Str, s.all (fun b => decide (b < 0x80)) = true → Utf8 s := fun s hs => utf8_ascii fun b hb => by
    simpa using List.all_eq_true.1 hs b hb
  have o : ∀ (c n s : Str) (m : Str × Datum), m ∈ (if c = [] then [] else [(n, Datum.str s)]) → Utf8 n → Utf8 s → Utf8 m.1 ∧ m.2.Utf8 := by
    intro c n s m hm hn hs
    split at hm
    · simp at hm
    · rw [List.mem_singleton.1 hm]
      exact ⟨hn, hs⟩
  refine utf8Fields_of fun m hm => ?_
  unfold publicMembers at hm
  simp only [List.mem_append, List.mem_cons, List.not_mem_nil, or_false] at hm
  rcases hm with ((((hm | rfl) | hm) | rfl) | hm) | rfl | rfl
  · exact o _ _ _ _ hm (a _ (by decide)) h1
  · exact ⟨a _ (by decide), a _ (by decide)⟩
  · exact o _ _ _ _ hm (a _ (by decide)) h2
  · exact ⟨a _ (by decide), a _ (by decide)⟩
  · exact o _ _ _ _ hm (a _ (by decide)) h3
  · exact ⟨a g!"x" (by decide), hb _⟩
  · exact ⟨a g!"y" (by decide), hb _⟩

theorem keySet_utf8 {ks : List (List (Str × Datum))} (h : ∀ m ∈ ks, Datum.Utf8Fields m) : (keySet ks).Utf8 := by
  have key : Datum.Utf8All (ks.map .obj) := by
    induction ks with
    | nil => simp [Datum.Utf8All]
    | cons m l ih =>
      simp only [List.map_cons, Datum.Utf8All, Datum.Utf8]
      exact ⟨h m (by simp), ih fun x hx => h x (by simp [hx])⟩
  simp only [keySet, Datum.Utf8, Datum.Utf8Fields, and_true]
  exact ⟨utf8_ascii (by decide), key⟩

/-- The names of the keys are UTF-8. -/
def NamesUtf8 (k : EcKey) : Prop := Utf8 k.use ∧ Utf8 k.kid ∧ Utf8 k.alg

/-- **C107** (nothing else is said). Whoever reads a published set reads public members only. -/
theorem C107_only_public {ks : List EcKey} (hu : ∀ k ∈ ks, NamesUtf8 k) {d : Datum} (h : Says (setText (ks.map EcKey.pub)) d) (hd : d.Utf8) :
    ∃ ms, d = keySet ms ∧ ms.length = ks.length ∧ ∀ m ∈ ms, IsPublic m := by
  have hk : (keySet (ks.map fun k => publicMembers k.use k.kid k.alg k.x k.y)).Utf8 := by
    refine keySet_utf8 fun m hm => ?_
    obtain ⟨k, hk, rfl⟩ := List.mem_map.1 hm
    exact publicMembers_utf8 _ _ (hu k hk).1 (hu k hk).2.1 (hu k hk).2.2
  refine ⟨_, C106_said_once h (C107_published ks) hd hk, by simp, fun m hm => ?_⟩
  obtain ⟨k, _, rfl⟩ := List.mem_map.1 hm
  exact publicMembers_public _ _ _ _ _

/-! ### Reading -/

/-- A key go-jose can hold: on the curve, with numbers of 48 bytes. -/
def Sound (k : EcKey) : Prop :=
  k.x.length = 48 ∧ k.y.length = 48 ∧ P384.OnCurve (nat k.x) (nat k.y) ∧ ∀ d, k.d = some d → d.length = 48

theorem ofMembers_public {k : EcKey} (h : Sound k) : ofMembers (publicMembers k.use k.kid k.alg k.x k.y) = some k.pub := by
  obtain ⟨use, kid, alg, x, y, d⟩ := k
  obtain ⟨h1, h2, h3, -⟩ := h
  have hx := Go.b64Decode_b64 x
  have hy := Go.b64Decode_b64 y
  simp only at h1 h2 h3
  have e : ∀ {use kid alg}, (text (publicMembers use kid alg x y) g!"use", text (publicMembers use kid alg x y) g!"kty",
      text (publicMembers use kid alg x y) g!"kid", text (publicMembers use kid alg x y) g!"crv",
      text (publicMembers use kid alg x y) g!"alg", buffer (publicMembers use kid alg x y) g!"x",
      buffer (publicMembers use kid alg x y) g!"y", buffer (publicMembers use kid alg x y) g!"d") =
      (some use, some g!"EC", some kid, some g!"P-384", some alg, some (some x), some (some y), some none) := by
    intro use kid alg
    by_cases c1 : use = [] <;> by_cases c2 : kid = [] <;> by_cases c3 : alg = [] <;>
      simp [publicMembers, c1, c2, c3, text, buffer, List.lookup, hx, hy]
  simp only [Prod.mk.injEq] at e
  unfold ofMembers
  simp only [e, h1, h2, h3, EcKey.pub, Option.all_none, and_self, if_true]

/-- **C107** (reading). A key set read from what is published has exactly the public halves. -/
theorem C107_read {ks : List EcKey} (hs : ∀ k ∈ ks, Sound k) (hu : ∀ k ∈ ks, NamesUtf8 k) {d : Datum}
    (h : Says (setText (ks.map EcKey.pub)) d) (hd : d.Utf8) : ofSet d = some (ks.map EcKey.pub) := by
  have hk : (keySet (ks.map fun k => publicMembers k.use k.kid k.alg k.x k.y)).Utf8 := by
    refine keySet_utf8 fun m hm => ?_
    obtain ⟨k, hk, rfl⟩ := List.mem_map.1 hm
    exact publicMembers_utf8 _ _ (hu k hk).1 (hu k hk).2.1 (hu k hk).2.2
  rw [C106_said_once h (C107_published ks) hd hk]
  have key : ∀ ks : List EcKey, (∀ k ∈ ks, Sound k) →
      ((ks.map fun k => publicMembers k.use k.kid k.alg k.x k.y).map Datum.obj).mapM (fun
        | .obj m => ofMembers m
        | _ => none) = some (ks.map EcKey.pub) := by
    intro ks hs
    induction ks with
    | nil => rfl
    | cons k l ih =>
      simp only [List.map_cons, List.mapM_cons, ofMembers_public (hs k (by simp)), ih fun x hx => hs x (by simp [hx])]
      rfl
  exact key ks hs

/-! ### Secrecy -/

/-- **C107** (secrecy). What is answered depends on the public half of the key only: two servers with the same public
key and different private numbers answer the same. -/
theorem C107_secret {space : Bool} {dec dec' : Str → Option EcKey} (h : (keyProvider dec).map EcKey.pub = (keyProvider dec').map EcKey.pub) :
    jwks space (keySetProvider dec) = jwks space (keySetProvider dec') := by
  unfold keyProvider at h
  unfold keySetProvider
  cases h1 : dec jwkPrivateKey <;> cases h2 : dec' jwkPrivateKey <;> simp [h1, h2] at h ⊢
  rw [h]

/-! ### The keys that are written in the sources -/

/-- `dec` reads keys as go-jose does, from every JSON text of a key in UTF-8 without repeated names. -/
def Reads (dec : Str → Option EcKey) : Prop :=
  ∀ t o k, Says t (.obj o) → (Datum.obj o).Utf8 → (o.map (·.1)).Nodup → ofMembers o = some k → dec t = some k

def flat : Datum → Bool
  | .str s => s.all fun b => decide (b < 0x80)
  | _ => false

/-- The text is read as an object with different names and ASCII texts that satisfies `P`. -/
def readAs (t : Str) (P : List (Str × Datum) → Bool) : Bool :=
  match readText t with
  | some (.obj o) => decide ((o.map (·.1)).Nodup) && (o.all fun m => (m.1.all fun b => decide (b < 0x80)) && flat m.2) && P o
  | _ => false

theorem utf8_flat {o : List (Str × Datum)} (h : (o.all fun m => (m.1.all fun b => decide (b < 0x80)) && flat m.2) = true) :
    Datum.Utf8Fields o := by
  have a : ∀ s : Str, s.all (fun b => decide (b < 0x80)) = true → Utf8 s := fun s hs => utf8_ascii fun b hb => by
    simpa using List.all_eq_true.1 hs b hb
  refine utf8Fields_of fun m hm => ?_
  have := List.all_eq_true.1 h m hm
  rw [Bool.and_eq_true] at this
  refine ⟨a _ this.1, ?_⟩
  obtain ⟨k, v⟩ := m
  cases v with
  | str s => exact a s this.2
  | _ => cases this.2

theorem readAs_says {t : Str} {P : List (Str × Datum) → Bool} (h : readAs t P = true) :
    ∃ o, Says t (.obj o) ∧ (Datum.obj o).Utf8 ∧ (o.map (·.1)).Nodup ∧ P o = true := by
  unfold readAs at h
  split at h
  · rename_i o ho
    simp only [Bool.and_eq_true, decide_eq_true_eq] at h
    exact ⟨o, readText_says ho, utf8_flat h.1.2, h.1.1, h.2⟩
  · cases h

theorem server_text : ∃ o, Says jwkPrivateKey (.obj o) ∧ (Datum.obj o).Utf8 ∧ (o.map (·.1)).Nodup ∧ ofMembers o = some serverKey := by
  have h : readAs jwkPrivateKey (fun o => ofMembers o = some serverKey) = true := by decide +kernel
  obtain ⟨o, h1, h2, h3, h4⟩ := readAs_says h
  exact ⟨o, h1, h2, h3, by simpa using h4⟩

theorem serverKey_sound : Sound serverKey := by
  refine ⟨by decide +kernel, by decide +kernel, by decide +kernel, fun d h => ?_⟩
  cases h
  decide +kernel

/-- **C107** (the server's key). The key the authorization server signs with is a pair on P-384 for ES384 with a name, the
published one is its public half, and the private number is not in the answer. -/
theorem C107_shipped {dec : Str → Option EcKey} (hd : Reads dec) (space : Bool) :
    ∃ k d t, keyProvider dec = some k ∧ k.d = some d ∧ P384.Multiple (nat d) (nat k.x) (nat k.y) ∧ k.kid ≠ [] ∧ k.alg = g!"ES384" ∧
      jwks space (keySetProvider dec) = (200, t) ∧ Says t (keySet [publicMembers k.use k.kid k.alg k.x k.y]) ∧
      ¬ Go.b64 d <:+: t := by
  obtain ⟨o, h1, h2, h3, h4⟩ := server_text
  have hk : dec jwkPrivateKey = some serverKey := hd _ _ _ h1 h2 h3 h4
  obtain ⟨d, hd, hm⟩ := serverKey_pair
  refine ⟨serverKey, d, setText [serverKey.pub], hk, hd, hm, by decide, rfl, ?_, C107_published [serverKey], ?_⟩
  · unfold keySetProvider
    rw [hk]
    rfl
  · cases hd
    decide +kernel

/-- **C107** (only keys of the curve are read). A key is read only from members that say `EC` and `P-384`, with
coordinates of 48 bytes of a point on the curve; a private number has 48 bytes. -/
theorem C107_sound {o : List (Str × Datum)} {k : EcKey} (h : ofMembers o = some k) :
    Sound k ∧ o.lookup g!"kty" = some (.str g!"EC") ∧ o.lookup g!"crv" = some (.str g!"P-384") := by
  have txt : ∀ {n v : Str}, v ≠ [] → text o n = some v → o.lookup n = some (.str v) := by
    intro n v hv ht
    unfold text at ht
    split at ht
    · simp at ht; exact absurd ht hv
    · rename_i heq; simp at ht; subst ht; exact heq
    · cases ht
  unfold ofMembers at h
  split at h
  · rename_i use kty kid crv alg x y d e1 e2 e3 e4 e5 e6 e7 e8
    split at h
    · rename_i hc
      obtain ⟨rfl, rfl, h1, h2, h3, h4⟩ := hc
      simp at h; subst h
      refine ⟨⟨h1, h2, h3, fun d' hd => ?_⟩, txt (by decide) e2, txt (by decide) e4⟩
      simp only at hd; subst hd; simpa using h4
    · cases h
  · cases h

/-- **C107** (likewise for sets). -/
theorem C107_set_sound {d : Datum} {ks : List EcKey} (h : ofSet d = some ks) : ∀ k ∈ ks, Sound k := by
  unfold ofSet at h
  split at h
  · split at h
    · rename_i l _ vs hl
      clear hl
      revert ks
      induction vs with
      | nil => intro ks h k hk; simp at h; subst h; cases hk
      | cons v vs ih =>
        intro ks h k hk
        simp only [List.mapM_cons, Option.bind_eq_bind, Option.bind_eq_some_iff, Option.pure_def, Option.some.injEq] at h
        obtain ⟨k1, h1, ks1, h2, rfl⟩ := h
        rcases List.mem_cons.1 hk with rfl | hk
        · split at h1
          · exact (C107_sound h1).1
          · cases h1
        · exact ih h2 k hk
    · cases h
  · cases h

/-- The published key is read; with another `y`, or a coordinate without its leading byte, it is not. -/
example : ∃ k, ofMembers (publicMembers serverKey.use serverKey.kid serverKey.alg serverKey.x serverKey.y) = some k ∧
    ofMembers (publicMembers serverKey.use serverKey.kid serverKey.alg serverKey.x serverKey.x) = none ∧
    ofMembers (publicMembers serverKey.use serverKey.kid serverKey.alg (serverKey.x.drop 1) serverKey.y) = none :=
  ⟨serverKey.pub, ofMembers_public serverKey_sound, by decide +kernel, by decide +kernel⟩

/-- **C107** (identity). Different keys are different to the verifiers: a signature is never checked with another key
that only looks the same. -/
theorem C107_told_apart {k k' : EcKey} (h : Sound k) (h' : Sound k') (he : k.jwk = k'.jwk) : k = k' := by
  obtain ⟨use, kid, alg, x, y, d⟩ := k
  obtain ⟨use', kid', alg', x', y', d'⟩ := k'
  obtain ⟨hx, hy, -, hd⟩ := h
  obtain ⟨hx', hy', -, hd'⟩ := h'
  simp only at hx hy hx' hy' hd hd'
  simp only [EcKey.jwk, Jose.Jwk.mk.injEq] at he
  obtain ⟨rfl, rfl, rfl, he⟩ := he
  rw [List.append_assoc, List.append_assoc] at he
  have h1 := List.append_inj he (by omega)
  have h2 := List.append_inj h1.2 (by omega)
  rw [h1.1, h2.1]
  congr 1
  cases d with
  | none => cases d' with
    | none => rfl
    | some d' => have := hd' d' rfl; have := h2.2; simp_all
  | some d => cases d' with
    | none => have := hd d rfl; have := h2.2; simp_all
    | some d' => simpa using h2.2

/-- **C107** (verification). Whatever the server's key signs, for authorization responses as for metadata, verifies with the key
set anyone reads from the answer. -/
theorem C107_verifies {C : Type} {L : Sign.Lib C} {ok : C → Prop} (hL : L.Lawful ok) {dec : Str → Option EcKey} (hd : Reads dec)
    (hp : ∀ k : EcKey, Sound k → L.pub k.jwk = k.pub.jwk) {s : Sign.Signer} {c : C} {raw : Str} (hc : ok c)
    (h : Sign.serialize L s ((keyProvider dec).map EcKey.jwk) c = some raw) {space : Bool} {d : Datum}
    (hs : Says (jwks space (keySetProvider dec)).2 d) (hu : d.Utf8) :
    ∃ ks, ofSet d = some ks ∧ Jose.defaultClaims L.parse L.dec (some (some (ks.map EcKey.jwk))) raw = .ok c := by
  obtain ⟨o, h1, h2, h3, h4⟩ := server_text
  have hk : dec jwkPrivateKey = some serverKey := hd _ _ _ h1 h2 h3 h4
  have ht : jwks space (keySetProvider dec) = (200, setText ([serverKey].map EcKey.pub)) := by
    unfold keySetProvider
    rw [hk]
    rfl
  rw [ht] at hs
  have hn : NamesUtf8 serverKey := ⟨utf8_ascii (by decide), utf8_ascii (by decide), utf8_ascii (by decide)⟩
  refine ⟨_, C107_read (by simpa using serverKey_sound) (by simpa using hn) hs hu, ?_⟩
  have hpub := hp serverKey serverKey_sound
  unfold keyProvider at h
  rw [hk] at h
  simp only [Option.map_some, Sign.serialize] at h
  split at h
  · cases h
  · exact defaultClaims_signed hL hc h (by rw [hpub]; simp) (by rw [hpub]; rfl) (by rw [hpub]; decide)

/-- The text is read as a set of one key with ASCII texts that satisfies `P`. -/
def readSet (t : Str) (P : List (Str × Datum) → Bool) : Bool :=
  match readText t with
  | some (.obj [(n, .arr [.obj m])]) =>
    decide (n = g!"keys") && (m.all fun m => (m.1.all fun b => decide (b < 0x80)) && flat m.2) && P m
  | _ => false

theorem readSet_says {t : Str} {P : List (Str × Datum) → Bool} (h : readSet t P = true) :
    ∃ m, Says t (keySet [m]) ∧ (keySet [m]).Utf8 ∧ P m = true := by
  unfold readSet at h
  split at h
  · rename_i n m ho
    simp only [Bool.and_eq_true, decide_eq_true_eq] at h
    obtain ⟨⟨rfl, h2⟩, h3⟩ := h
    exact ⟨m, readText_says ho, keySet_utf8 (by simpa using utf8_flat h2), h3⟩
  · cases h

def isPublic (m : List (Str × Datum)) : Bool := privateNames.all fun n => (m.lookup n).isNone

theorem isPublic_iff {m : List (Str × Datum)} (h : isPublic m = true) : IsPublic m := by
  intro n hn
  simpa using List.all_eq_true.1 h n hn

/-- **C107** (registered keys). Every key set registered for a client that is shipped says one public key, and nothing
else can be read from it. -/
theorem C107_registered {id : Str} {c : Client} (h : (id, c) ∈ Registry.shipped) (hj : c.jwks ≠ []) :
    ∃ m, Says c.jwks (keySet [m]) ∧ IsPublic m ∧ ∀ d, Says c.jwks d → d.Utf8 → d = keySet [m] := by
  have key : ∀ x ∈ Registry.shipped, x.2.jwks = [] ∨ readSet x.2.jwks isPublic = true := by decide +kernel
  rcases key _ h with hn | hr
  · exact absurd hn hj
  · obtain ⟨m, h1, h2, h3⟩ := readSet_says hr
    exact ⟨m, h1, isPublic_iff h3, fun d hs hd => C106_said_once hs h1 hd h2⟩

/-- The text of a private key and a registered key set say the two halves of one pair, under the name of the client. -/
def Halves (jwk : Str) (c : Client) : Prop :=
  ∃ o k d m k', Says jwk (.obj o) ∧ ofMembers o = some k ∧ k.d = some d ∧ Says c.jwks (keySet [m]) ∧ ofMembers m = some k' ∧
    k'.d = none ∧ k'.kid = c.clientId ∧ P384.Multiple (nat d) (nat k'.x) (nat k'.y)

theorem halves {jwk : Str} {c : Client} {k : EcKey} (h : readAs jwk (fun o => ofMembers o = some k) = true)
    (hp : ∃ d, k.d = some d ∧ P384.Multiple (nat d) (nat k.x) (nat k.y))
    (hr : readSet c.jwks (fun m => ofMembers m = some { k.pub with kid := c.clientId }) = true) : Halves jwk c := by
  obtain ⟨o, h1, -, -, h2⟩ := readAs_says h
  obtain ⟨m, h3, -, h4⟩ := readSet_says hr
  obtain ⟨d, hd, hm⟩ := hp
  exact ⟨o, k, d, m, { k.pub with kid := c.clientId }, h1, by simpa using h2, hd, h3, by simpa using h4, rfl, rfl, hm⟩

/-- **C107** (the clients' keys). The example resource server and the example device client sign with the private halves of the keys
registered for them. -/
theorem C107_clients : Halves resourceServerJwk Registry.resourceServer ∧ Halves deviceClientJwk Registry.testClient :=
  ⟨halves (k := resourceKey) (by decide +kernel) resourceKey_pair (by decide +kernel),
   halves (k := deviceKey) (by decide +kernel) deviceKey_pair (by decide +kernel)⟩

/-- The text of the coordinate `x`. -/
def xOf (m : List (Str × Datum)) : Str :=
  match m.lookup g!"x" with
  | some (.str s) => s
  | _ => []

/-- The coordinate `x` of a set of one key. -/
def setX (t : Str) : Str :=
  match readText t with
  | some (.obj [(_, .arr [.obj m])]) => xOf m
  | _ => []

/-- **C107** (separation). Different shipped clients have different keys. -/
theorem C107_separate {id id' : Str} {c c' : Client} (h : (id, c) ∈ Registry.shipped) (h' : (id', c') ∈ Registry.shipped) (hne : id ≠ id')
    {m m' : List (Str × Datum)} (hm : Says c.jwks (keySet [m])) (hm' : Says c'.jwks (keySet [m'])) (hu : (keySet [m]).Utf8)
    (hu' : (keySet [m']).Utf8) : xOf m ≠ xOf m' := by
  have key : ∀ x ∈ Registry.shipped, x.2.jwks = [] ∨ readSet x.2.jwks (fun m => xOf m = setX x.2.jwks) = true := by decide +kernel
  have get : ∀ {id c m}, (id, c) ∈ Registry.shipped → Says c.jwks (keySet [m]) → (keySet [m]).Utf8 →
      c.jwks ≠ [] ∧ xOf m = setX c.jwks := by
    intro id c m h hm hu
    have hj : c.jwks ≠ [] := fun he => says_nil (by rw [he] at hm; exact hm)
    refine ⟨hj, ?_⟩
    rcases key _ h with hn | hr
    · exact absurd hn hj
    · obtain ⟨m1, h1, h2, h3⟩ := readSet_says hr
      have := C106_said_once hm h1 hu h2
      simp only [keySet, List.map_cons, List.map_nil, Datum.obj.injEq, Datum.arr.injEq, List.cons.injEq, Prod.mk.injEq, and_true,
        true_and] at this
      rw [this]
      simpa using h3
  obtain ⟨j1, e1⟩ := get h hm hu
  obtain ⟨j2, e2⟩ := get h' hm' hu'
  rw [e1, e2]
  have all : ∀ x ∈ Registry.shipped, ∀ y ∈ Registry.shipped, x.1 ≠ y.1 → x.2.jwks ≠ [] → y.2.jwks ≠ [] →
      setX x.2.jwks ≠ setX y.2.jwks := by decide +kernel
  exact all _ h _ h' hne j1 j2

/-- **C107_violated** (separation). The attestation server and the resource server have the same Ed25519 key: only the first 32 bytes of the
sources make up the key, whatever is computed from them. -/
theorem C107_shared_violated {K : Type} (generate : Str → K) :
    attestationSource ≠ timestampSource ∧ generate (seed attestationSource) = generate (seed timestampSource) := by
  refine ⟨by decide, ?_⟩
  have : seed attestationSource = seed timestampSource := by decide
  rw [this]

/-! ### The hypotheses are met -/

theorem serverKey_names : NamesUtf8 serverKey := ⟨utf8_ascii (by decide), utf8_ascii (by decide), utf8_ascii (by decide)⟩

/-- The hypotheses of C107_only_public and C107_read are met by the server's key and what is said of it. -/
example : Sound serverKey ∧ NamesUtf8 serverKey ∧ ∃ d, Says (setText ([serverKey].map EcKey.pub)) d ∧ d.Utf8 :=
  ⟨serverKey_sound, serverKey_names, _, C107_published [serverKey],
   keySet_utf8 (by simpa using publicMembers_utf8 _ _ serverKey_names.1 serverKey_names.2.1 serverKey_names.2.2)⟩

/-- There are readers of keys. -/
theorem reads_exists : ∃ dec, Reads dec := by
  classical
  refine ⟨fun t => if h : ∃ o k, Says t (.obj o) ∧ (Datum.obj o).Utf8 ∧ ofMembers o = some k then some h.choose_spec.choose else none, ?_⟩
  intro t o k h1 h2 _ h4
  have h : ∃ o k, Says t (.obj o) ∧ (Datum.obj o).Utf8 ∧ ofMembers o = some k := ⟨o, k, h1, h2, h4⟩
  simp only [dif_pos h]
  have hs := h.choose_spec.choose_spec
  have he := C106_said_once hs.1 h1 hs.2.1 h2
  simp only [Datum.obj.injEq] at he
  exact hs.2.2.symm.trans ((congrArg ofMembers he).trans h4)

/-- Two private keys with the same public half, for C107_secret. -/
example : ∃ k k' : EcKey, k ≠ k' ∧ k.pub = k'.pub ∧ keyText k ≠ keyText k' ∧ k.d.isSome ∧ k'.d.isSome :=
  ⟨serverKey, { serverKey with d := resourceKey.d }, by decide +kernel, by decide +kernel, by decide +kernel, rfl, rfl⟩

/-- A library whose signatures name the coordinates of the key. -/
def ecLib : Sign.Lib Str where
  sign typ kid e k c := if typ = g!"jarm" ∧ kid = g!"123456789" ∧ e = false ∧ 96 ≤ k.key.length then
    some (1 :: (k.key.take 96 ++ c)) else none
  parse raw := some { kid := g!"123456789", typ := some g!"jarm", payload := raw.drop 97,
                      verifies := fun k => k.key == (raw.drop 1).take 96 }
  dec := some
  pub k := { k with key := k.key.take 96 }

/-- The hypotheses of C107_verifies are met. -/
example : ecLib.Lawful (fun _ => True) ∧ (∀ k : EcKey, Sound k → ecLib.pub k.jwk = k.pub.jwk) ∧
    ∃ raw, Sign.serialize ecLib Sign.jarmSigner (some serverKey.jwk) g!"claims" = some raw := by
  refine ⟨⟨?_, ?_⟩, ?_, ?_⟩
  · intro typ kid e k c raw h
    simp only [ecLib] at h
    split at h
    · cases h; simp
    · cases h
  · intro typ kid e k c raw _ h
    simp only [ecLib] at h
    split at h
    · rename_i hc
      obtain ⟨rfl, rfl, rfl, hl⟩ := hc
      cases h
      have h96 : (k.key.take 96).length = 96 := by rw [List.length_take]; omega
      refine ⟨_, rfl, rfl, rfl, ?_, ?_, by simp⟩
      · simp only [ecLib, List.drop_succ_cons, List.drop_zero, beq_iff_eq]
        rw [List.take_append_of_le_length (by omega), List.take_take]
        rfl
      · simp only [ecLib, List.drop_succ_cons]
        rw [List.drop_append_of_le_length (by omega), List.drop_of_length_le (by omega)]
        rfl
    · cases h
  · rintro ⟨use, kid, alg, x, y, d⟩ ⟨h1, h2, -, -⟩
    simp only at h1 h2
    simp only [ecLib, EcKey.jwk, EcKey.pub, Option.getD_none, List.append_nil, Jose.Jwk.mk.injEq, true_and]
    rw [List.take_append_of_le_length (by simp; omega), List.take_of_length_le (by simp; omega)]
  · have : (Sign.serialize ecLib Sign.jarmSigner (some serverKey.jwk) g!"claims").isSome = true := by decide +kernel
    exact Option.isSome_iff_exists.1 this

/-- Four of the shipped clients have keys, for C107_registered and C107_separate. -/
example : (Registry.shipped.filter fun x => x.2.jwks ≠ []).map (·.1) =
    [g!"t8p9duw4n2klximkv3kagaud796ul67g", g!"5stz52n91hr7aw9q1h5hbuvkt2ovevdw", g!"6779ef20e75817b79602",
     g!"urn:solid:attestation-server"] := by decide +kernel

/-- A key and its public half are sound and not the same to the verifiers, for C107_told_apart. -/
example : Sound serverKey ∧ Sound serverKey.pub ∧ serverKey.jwk ≠ serverKey.pub.jwk :=
  ⟨serverKey_sound, ⟨serverKey_sound.1, serverKey_sound.2.1, serverKey_sound.2.2.1, by simp [EcKey.pub]⟩, by decide +kernel⟩

end Verif.Props
