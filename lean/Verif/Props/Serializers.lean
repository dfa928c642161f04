import Verif.Model.Serializers
import Verif.Proofs.Lib

/-!
C86: whoever reads a token that a serializer made sees what kind it is, which key signed it
and the claims; and the decorator encrypts exactly the signed token. Fails for JWTs, whose
type has no suffix, and for CWTs without a key provider.
-/
namespace Verif.Props.Ser
open Verif.Serializers Verif.Jose

/-- What a reader finds in a token. -/
structure Seen (C : Type) where
  typ : Str
  kid : Str
  claims : C
  signedBy : Str
  /-- the key is in the token -/
  embedded : Bool
deriving DecidableEq

inductive Format where
  | jwt | paseto | cwt
deriving DecidableEq, Repr

/-- The media type without `application/` (RFC 8725 section 3.11, RFC 9068 section 2.1): the name of the
kind and the format as its structured suffix. -/
def mediaType (f : Format) (name : Str) : Str :=
  name ++ match f with
    | .jwt => g!"+jwt"
    | .paseto => g!"+paseto"
    | .cwt => g!"+cwt"

/-- Readers and what is assumed of the libraries: what they sign can be read again. -/
structure JwtLawful {C : Type} (sign : JwtLib C) (read : Str → Option (Seen C)) : Prop where
  signed : ∀ {alg typ kid e k c raw}, sign alg typ kid e k c = some raw → read raw = some ⟨typ, kid, c, k.material, e⟩

structure PasetoReader (C : Type) where
  open' : Str → Option (Str × Str × Str)
  json : Str → Option C
  footer : Str → Option (Str × Str)

def PasetoReader.read {C : Type} (R : PasetoReader C) (raw : Str) : Option (Seen C) := do
  let (m, f, by') ← R.open' raw
  let c ← R.json m
  let (kid, typ) ← R.footer f
  return ⟨typ, kid, c, by', false⟩

structure PasetoLawful {C : Type} (L : PasetoLib C) (R : PasetoReader C) : Prop where
  signed : ∀ {m k f raw}, L.sign m k f = some raw → R.open' raw = some (m, f, k.material)
  json : ∀ {c m}, L.json c = some m → R.json m = some c
  footer : ∀ {kid typ f}, L.footer kid typ = some f → R.footer f = some (kid, typ)

structure CwtReader (C : Type) where
  /-- with the external data, which is not in the message -/
  open' : (external : Str) → Str → Option (Str × Str × Str × Str)
  cbor : Str → Option C

def CwtReader.read {C : Type} (R : CwtReader C) (external raw : Str) : Option (Seen C) := do
  let b ← Go.b64Decode raw
  let (typ, kid, p, by') ← R.open' external b
  let c ← R.cbor p
  return ⟨typ, kid, c, by', false⟩

structure CwtLawful {C : Type} (L : CwtLib C) (R : CwtReader C) : Prop where
  signed : ∀ {alg typ kid x k p m}, L.sign alg typ kid x k p = some m → R.open' x m = some (typ, kid, p, k.material)
  cbor : ∀ {c p}, L.cbor c = some p → R.cbor p = some c

theorem ofOption_ok {α : Type} {o : Option α} {a : α} (h : Out.ofOption o = .ok a) : o = some a := by
  cases o with
  | none => cases h
  | some b => cases h; rfl

/-- **C86** (PASETO). The token says its kind, the key id and the claims, and is signed with
the Ed25519 key of the provider. -/
theorem C86_paseto {C : Type} (L : PasetoLib C) (R : PasetoReader C) (hL : PasetoLawful L R) (name : Str) (p : Provider)
    (claims : Option C) (raw : Str) (h : (pasetoSerializer L name p).serialize claims = .ok raw) :
    ∃ k c, p = .key k ∧ claims = some c ∧ k.kid ≠ [] ∧ k.isEd25519Private = true ∧
      R.read raw = some ⟨mediaType .paseto name, k.kid, c, k.material, false⟩ := by
  cases claims with
  | none => cases h
  | some c =>
    cases p with
    | absent => cases h
    | fails => cases h
    | noKey => cases h
    | key k =>
      simp only [pasetoSerializer, paseto] at h
      split at h
      · cases h
      · rename_i hk
        split at h
        · cases h
        · rename_i he
          split at h
          · cases h
          · rename_i m hm
            split at h
            · cases h
            · rename_i f hf
              have hs := ofOption_ok h
              refine ⟨k, c, rfl, rfl, hk, by simpa using he, ?_⟩
              simp [PasetoReader.read, hL.signed hs, hL.json hm, hL.footer hf, mediaType]

/-- **C86** (CWT). The same, with a private key; the external data of the signature is
`solid`. -/
theorem C86_cwt {C : Type} (L : CwtLib C) (R : CwtReader C) (hL : CwtLawful L R) (alg : Str) (kind : Kind) (p : Provider)
    (claims : Option C) (raw : Str) (h : (cwtSerializer L alg kind p).serialize claims = .ok raw) :
    ∃ k c, p = .key k ∧ claims = some c ∧ k.kid ≠ [] ∧ k.isPublic = false ∧
      R.read g!"solid" raw = some ⟨mediaType .cwt kind.name, k.kid, c, k.material, false⟩ := by
  cases claims with
  | none => cases h
  | some c =>
    cases p with
    | absent => cases h
    | fails => cases h
    | noKey => cases h
    | key k =>
      simp only [cwtSerializer, cwtBuilder, cwt] at h
      split at h
      · cases h
      · rename_i hk
        split at h
        · cases h
        · rename_i hp
          split at h
          · cases h
          · split at h
            · cases h
            · rename_i b hb
              split at h
              · cases h
              · rename_i m hm
                cases h
                refine ⟨k, c, rfl, rfl, hk, by simpa using hp, ?_⟩
                simp [CwtReader.read, Go.b64Decode_b64, hL.signed hm, hL.cbor hb, mediaType]

/-- **C86** (JWT, partial). The same for JWTs, except that the type is the bare name of the
kind. Only DPoP proofs hold the key. Missing: the suffix (`C86_jwt_type_violated`). -/
theorem C86_jwt_partial {C : Type} (sign : JwtLib C) (read : Str → Option (Seen C)) (hL : JwtLawful sign read) (alg : Str)
    (kind : Kind) (p : Provider) (claims : Option C) (raw : Str)
    (h : (jwtSerializer sign alg kind p).serialize claims = .ok raw) :
    ∃ k c, p = .key k ∧ claims = some c ∧ k.kid ≠ [] ∧ read raw = some ⟨kind.name, k.kid, c, k.material, kind = .dpop⟩ := by
  cases claims with
  | none => cases h
  | some c =>
    cases p with
    | absent => cases h
    | fails => cases h
    | noKey => cases h
    | key k =>
      simp only [jwtSerializer, jwtBuilder, jwt] at h
      split at h
      · cases h
      · rename_i hk
        exact ⟨k, c, rfl, rfl, hk, hL.signed (ofOption_ok h)⟩

/-- **C86 violated** (JWT type). No JWT of any kind has the media type of its kind. -/
theorem C86_jwt_type_violated {C : Type} (sign : JwtLib C) (read : Str → Option (Seen C)) (hL : JwtLawful sign read) (alg : Str)
    (kind kind' : Kind) (p : Provider) (claims : Option C) (raw : Str)
    (h : (jwtSerializer sign alg kind p).serialize claims = .ok raw) :
    ∃ s, read raw = some s ∧ s.typ ≠ mediaType .jwt kind'.name := by
  obtain ⟨k, c, -, -, -, hr⟩ := C86_jwt_partial sign read hL alg kind p claims raw h
  refine ⟨_, hr, ?_⟩
  show kind.name ≠ mediaType .jwt kind'.name
  cases kind <;> cases kind' <;> decide

/-- **C86** (kinds are not confused). A token has one kind, one key and one set of claims:
two serializers that made the same text agree in all of them. -/
theorem C86_jwt_kind {C : Type} (sign : JwtLib C) (read : Str → Option (Seen C)) (hL : JwtLawful sign read) (alg alg' : Str)
    (kind kind' : Kind) (k k' : Key) (c c' : C) (raw : Str)
    (h : (jwtSerializer sign alg kind (.key k)).serialize (some c) = .ok raw)
    (h' : (jwtSerializer sign alg' kind' (.key k')).serialize (some c') = .ok raw) :
    kind = kind' ∧ c = c' ∧ k.kid = k'.kid ∧ k.material = k'.material := by
  obtain ⟨_, _, h1, h2, -, hr⟩ := C86_jwt_partial sign read hL _ _ _ _ _ h
  obtain ⟨_, _, h1', h2', -, hr'⟩ := C86_jwt_partial sign read hL _ _ _ _ _ h'
  cases h1; cases h2; cases h1'; cases h2'
  rw [hr] at hr'
  simp only [Option.some.injEq, Seen.mk.injEq] at hr'
  obtain ⟨h3, h4, h5, h6, -⟩ := hr'
  refine ⟨?_, h5, h4, h6⟩
  revert h3
  cases kind <;> cases kind' <;> decide

/-- **C86** (formats are not confused). No type of a PASETO is the type of a CWT. -/
theorem C86_formats {C : Type} (LP : PasetoLib C) (RP : PasetoReader C) (hP : PasetoLawful LP RP) (LC : CwtLib C) (RC : CwtReader C)
    (hC : CwtLawful LC RC) (name alg : Str) (kind : Kind) (p p' : Provider) (claims claims' : Option C) (raw raw' : Str)
    (h : (pasetoSerializer LP name p).serialize claims = .ok raw) (h' : (cwtSerializer LC alg kind p').serialize claims' = .ok raw') :
    ∃ s s', RP.read raw = some s ∧ RC.read g!"solid" raw' = some s' ∧ s.typ ≠ s'.typ := by
  obtain ⟨k, c, -, -, -, -, hr⟩ := C86_paseto LP RP hP _ _ _ _ h
  obtain ⟨k', c', -, -, -, -, hr'⟩ := C86_cwt LC RC hC _ _ _ _ _ h'
  refine ⟨_, _, hr, hr', fun e => ?_⟩
  have e := congrArg List.getLast? e
  simp [mediaType] at e

/-- **C86** (PASETO kinds). Two PASETO tokens with the same text have the same kind,
key and claims. -/
theorem C86_paseto_kind {C : Type} (L : PasetoLib C) (R : PasetoReader C) (hL : PasetoLawful L R) (name name' : Str)
    (k k' : Key) (c c' : C) (raw : Str) (h : (pasetoSerializer L name (.key k)).serialize (some c) = .ok raw)
    (h' : (pasetoSerializer L name' (.key k')).serialize (some c') = .ok raw) :
    name = name' ∧ c = c' ∧ k.kid = k'.kid ∧ k.material = k'.material := by
  obtain ⟨_, _, h1, h2, -, -, hr⟩ := C86_paseto L R hL _ _ _ _ h
  obtain ⟨_, _, h1', h2', -, -, hr'⟩ := C86_paseto L R hL _ _ _ _ h'
  cases h1; cases h2; cases h1'; cases h2'
  rw [hr] at hr'
  simp only [Option.some.injEq, Seen.mk.injEq, mediaType, List.append_cancel_right_eq] at hr'
  obtain ⟨h3, h4, h5, h6, -⟩ := hr'
  exact ⟨h3, h5, h4, h6⟩

/-- **C86** (CWT kinds). The same for CWTs. -/
theorem C86_cwt_kind {C : Type} (L : CwtLib C) (R : CwtReader C) (hL : CwtLawful L R) (alg alg' : Str)
    (kind kind' : Kind) (k k' : Key) (c c' : C) (raw : Str)
    (h : (cwtSerializer L alg kind (.key k)).serialize (some c) = .ok raw)
    (h' : (cwtSerializer L alg' kind' (.key k')).serialize (some c') = .ok raw) :
    kind = kind' ∧ c = c' ∧ k.kid = k'.kid ∧ k.material = k'.material := by
  obtain ⟨_, _, h1, h2, -, -, hr⟩ := C86_cwt L R hL _ _ _ _ _ h
  obtain ⟨_, _, h1', h2', -, -, hr'⟩ := C86_cwt L R hL _ _ _ _ _ h'
  cases h1; cases h2; cases h1'; cases h2'
  rw [hr] at hr'
  simp only [Option.some.injEq, Seen.mk.injEq] at hr'
  obtain ⟨h3, h4, h5, h6, -⟩ := hr'
  refine ⟨?_, h5, h4, h6⟩
  revert h3
  cases kind <;> cases kind' <;> decide

/-- **C86** (encryption). The decorator answers exactly what the encrypter makes of the signed
token, and nothing if signing fails. -/
theorem C86_encrypted {C : Type} (s : Option (Serializer C)) (e : Option Encrypter) (claims : Option C) (raw : Str) :
    (encryption s e).serialize claims = .ok raw ↔
      ∃ s' e' signed, s = some s' ∧ e = some e' ∧ s'.serialize claims = .ok signed ∧
        e' s'.contentType signed g!"urn:solid:token:sign-and-encrypt" = some raw := by
  constructor
  · intro h
    cases s with
    | none => cases h
    | some s' =>
      cases e with
      | none => cases h
      | some e' =>
        simp only [encryption] at h
        split at h
        · rename_i signed hs
          exact ⟨s', e', signed, rfl, rfl, hs, ofOption_ok h⟩
        · cases h
        · cases h
  · rintro ⟨s', e', signed, rfl, rfl, hs, he⟩
    simp only [encryption, hs, he, Out.ofOption]

/-- **C86** (content type). The encrypter is told the format of the signed token; for a JWT it is `JWT`, as RFC 7519 section 5.2
wants for nested ones. -/
theorem C86_content_type {C : Type} (J : JwtLib C) (W : CwtLib C) (L : PasetoLib C) (alg name : Str) (kind : Kind) (p : Provider)
    (e : Encrypter) (claims : Option C) (raw : Str) :
    ((encryption (some (jwtSerializer J alg kind p)) (some e)).serialize claims = .ok raw →
      ∃ signed, jwtBuilder J alg kind p claims = .ok signed ∧ e g!"JWT" signed g!"urn:solid:token:sign-and-encrypt" = some raw) ∧
    ((encryption (some (cwtSerializer W alg kind p)) (some e)).serialize claims = .ok raw →
      ∃ signed, cwtBuilder W alg kind p claims = .ok signed ∧ e g!"CWT" signed g!"urn:solid:token:sign-and-encrypt" = some raw) ∧
    ((encryption (some (pasetoSerializer L name p)) (some e)).serialize claims = .ok raw →
      ∃ signed, paseto L name p claims = .ok signed ∧ e g!"PASETO" signed g!"urn:solid:token:sign-and-encrypt" = some raw) := by
  refine ⟨fun h => ?_, fun h => ?_, fun h => ?_⟩ <;>
  · obtain ⟨s', e', signed, h1, h2, hs, hr⟩ := (C86_encrypted _ _ _ _).1 h
    cases h1; cases h2
    exact ⟨signed, hs, hr⟩

/-- **C86** (decryption). Whoever can decrypt gets the signed token back, with its format; a
wrapped PASETO still says its kind, key and claims. -/
theorem C86_decrypted {C : Type} (L : PasetoLib C) (R : PasetoReader C) (hL : PasetoLawful L R) (name : Str) (p : Provider)
    (e : Encrypter) (dec : Str → Str → Option (Str × Str))
    (he : ∀ {ct t aad raw}, e ct t aad = some raw → dec aad raw = some (ct, t)) (claims : Option C) (raw : Str)
    (h : (encryption (some (pasetoSerializer L name p)) (some e)).serialize claims = .ok raw) :
    ∃ signed k c, dec g!"urn:solid:token:sign-and-encrypt" raw = some (g!"PASETO", signed) ∧ claims = some c ∧
      R.read signed = some ⟨mediaType .paseto name, k, c, (match p with | .key k => k.material | _ => []), false⟩ := by
  obtain ⟨s', e', signed, h1, h2, hs, hr⟩ := (C86_encrypted _ _ _ _).1 h
  cases h1; cases h2
  obtain ⟨k, c, rfl, h2, -, -, h3⟩ := C86_paseto L R hL _ _ _ _ hs
  exact ⟨signed, k.kid, c, he hr, h2, h3⟩

/-- **C86** (no panic, partial). JWT and PASETO serializers never panic, CWT serializers only
without a key provider; encryption panics only if what it wraps does. Missing: CWT
serializers without a provider, which panic (`C86_cwt_crash_violated`). -/
theorem C86_no_crash_partial {C : Type} (sign : JwtLib C) (LP : PasetoLib C) (LC : CwtLib C) (alg name : Str) (kind : Kind)
    (p : Provider) (claims : Option C) :
    (jwtSerializer sign alg kind p).serialize claims ≠ .panic ∧ (pasetoSerializer LP name p).serialize claims ≠ .panic ∧
    ((∃ k, p = .key k) ∨ p = .fails ∨ p = .noKey → (cwtSerializer LC alg kind p).serialize claims ≠ .panic) ∧
    ∀ (s : Option (Serializer C)) (e : Option Encrypter), (encryption s e).serialize claims = .panic →
      ∃ s', s = some s' ∧ s'.serialize claims = .panic := by
  have oo : ∀ {o : Option Str}, Out.ofOption o ≠ .panic := by
    intro o h; cases o <;> cases h
  refine ⟨?_, ?_, ?_, ?_⟩
  · cases claims with
    | none => exact fun h => by cases h
    | some c =>
      cases p with
      | key k =>
        simp only [jwtSerializer, jwtBuilder, jwt]
        split
        · exact fun h => by cases h
        · exact oo
      | _ => exact fun h => by cases h
  · cases claims with
    | none => exact fun h => by cases h
    | some c =>
      cases p with
      | key k =>
        simp only [pasetoSerializer, paseto]
        repeat' split
        all_goals first | exact oo | exact fun h => by cases h
      | _ => exact fun h => by cases h
  · intro hp
    cases claims with
    | none => exact fun h => by cases h
    | some c =>
      cases p with
      | key k =>
        simp only [cwtSerializer, cwtBuilder, cwt]
        repeat' split
        all_goals exact fun h => by cases h
      | absent => obtain ⟨_, h⟩ | h | h := hp <;> cases h
      | _ => exact fun h => by cases h
  · intro s e h
    cases s with
    | none => cases h
    | some s' =>
      refine ⟨s', rfl, ?_⟩
      cases e with
      | none => cases h
      | some e' =>
        simp only [encryption] at h
        split at h
        · exact absurd h oo
        · cases h
        · assumption

/-- **C86 violated** (crash). Without a key provider every CWT serializer panics on all claims,
also inside the decorator; the JWT serializer answers an error. -/
theorem C86_cwt_crash_violated {C : Type} (sign : JwtLib C) (L : CwtLib C) (alg : Str) (kind : Kind) (e : Encrypter) (c : C) :
    (cwtSerializer L alg kind .absent).serialize (some c) = .panic ∧
    (encryption (some (cwtSerializer L alg kind .absent)) (some e)).serialize (some c) = .panic ∧
    (jwtSerializer sign alg kind .absent).serialize (some c) = .err := ⟨rfl, rfl, rfl⟩

/-! ### Examples -/

/-- Text with its length in front, so that two texts can be told apart. -/
def pack (a b : Str) : Str := UInt8.ofNat a.length :: (a ++ b)
def unpack : Str → Option (Str × Str)
  | [] => none
  | n :: s => some (s.take n.toNat, s.drop n.toNat)

def demoKey : Key := { kid := g!"k1", isEd25519Private := true, material := g!"secret" }

/-- A PASETO library over claims that are text. -/
def demoPaseto : PasetoLib Str where
  json c := some c
  footer kid typ := if kid.length < 256 then some (pack kid typ) else none
  sign m k f := if m.length < 256 ∧ f.length < 256 then some (pack m (pack f k.material)) else none

def demoReader : PasetoReader Str where
  open' s := do
    let (m, s) ← unpack s
    let (f, by') ← unpack s
    return (m, f, by')
  json := some
  footer := unpack

theorem unpack_pack {a b : Str} (h : a.length < 256) : unpack (pack a b) = some (a, b) := by
  have : (UInt8.ofNat a.length).toNat = a.length := by simp; omega
  simp [pack, unpack, this]

theorem demo_lawful : PasetoLawful demoPaseto demoReader where
  signed := by
    intro m k f raw h
    simp only [demoPaseto] at h
    split at h
    · rename_i hh
      cases h
      simp [demoReader, unpack_pack hh.1, unpack_pack hh.2]
    · cases h
  json := fun h => by cases h; rfl
  footer := by
    intro kid typ f h
    simp only [demoPaseto] at h
    split at h
    · rename_i hh; cases h; exact unpack_pack hh
    · cases h

/-- A PASETO and the same inside an envelope (C86_paseto, C86_paseto_kind, C86_encrypted,
C86_decrypted). -/
example : ∃ raw, (pasetoSerializer demoPaseto g!"at" (.key demoKey)).serialize (some g!"c") = .ok raw ∧
    demoReader.read raw = some ⟨g!"at+paseto", g!"k1", g!"c", g!"secret", false⟩ ∧
    ∃ x, (encryption (some (pasetoSerializer demoPaseto g!"at" (.key demoKey)))
      (some fun ct t aad => some (pack ct (pack aad t)))).serialize (some g!"c") = .ok x :=
  ⟨_, rfl, by decide, _, rfl⟩

/-- A key that is no Ed25519 private key, a key without id, nil claims. -/
example : (pasetoSerializer demoPaseto g!"at" (.key { demoKey with isEd25519Private := false })).serialize (some g!"c") = .err ∧
    (pasetoSerializer demoPaseto g!"at" (.key { demoKey with kid := [] })).serialize (some g!"c") = .err ∧
    (pasetoSerializer demoPaseto g!"at" (.key demoKey)).serialize none = .err := ⟨rfl, rfl, rfl⟩

/-- JWTs: the headers, the key and the claims in front of each other. -/
def demoJwt : JwtLib Str := fun _ typ kid e k c =>
  if typ.length < 256 ∧ kid.length < 256 ∧ k.material.length < 256 then
    some (pack typ (pack kid (pack k.material ((if e then 1 else 0) :: c)))) else none

def demoJwtRead (s : Str) : Option (Seen Str) := do
  let (typ, s) ← unpack s
  let (kid, s) ← unpack s
  let (m, s) ← unpack s
  match s with
  | [] => none
  | e :: c => return ⟨typ, kid, c, m, e = 1⟩

theorem demoJwt_lawful : JwtLawful demoJwt demoJwtRead where
  signed := by
    intro alg typ kid e k c raw h
    simp only [demoJwt] at h
    split at h
    · rename_i hh
      cases h
      cases e <;> simp [demoJwtRead, unpack_pack hh.1, unpack_pack hh.2.1, unpack_pack hh.2.2]
    · cases h

/-- A JWT access token, of type `at` (C86_jwt_partial, C86_jwt_type_violated, C86_jwt_kind). -/
example : ∃ raw, (jwtSerializer demoJwt g!"ES256" .access (.key demoKey)).serialize (some g!"c") = .ok raw ∧
    demoJwtRead raw = some ⟨g!"at", g!"k1", g!"c", g!"secret", false⟩ := ⟨_, rfl, by decide⟩

def demoCwt : CwtLib Str where
  signer _ _ := true
  cbor := some
  sign _ typ kid x k p :=
    if typ.length < 256 ∧ kid.length < 256 ∧ k.material.length < 256 ∧ x.length < 256 then
      some (pack x (pack typ (pack kid (pack k.material p)))) else none

def demoCwtReader : CwtReader Str where
  open' x s := do
    let (x', s) ← unpack s
    let (typ, s) ← unpack s
    let (kid, s) ← unpack s
    let (m, p) ← unpack s
    if x = x' then return (typ, kid, p, m) else none
  cbor := some

theorem demoCwt_lawful : CwtLawful demoCwt demoCwtReader where
  signed := by
    intro alg typ kid x k p m h
    simp only [demoCwt] at h
    split at h
    · rename_i hh
      cases h
      simp [demoCwtReader, unpack_pack hh.1, unpack_pack hh.2.1, unpack_pack hh.2.2.1, unpack_pack hh.2.2.2]
    · cases h
  cbor := fun h => by cases h; rfl

/-- A CWT refresh token (C86_cwt, C86_cwt_kind); a public key is refused. -/
example : ∃ raw, (cwtSerializer demoCwt g!"ES256" .refresh (.key demoKey)).serialize (some g!"c") = .ok raw ∧
    demoCwtReader.read g!"solid" raw = some ⟨g!"rt+cwt", g!"k1", g!"c", g!"secret", false⟩ ∧
    (cwtSerializer demoCwt g!"ES256" .refresh (.key { demoKey with isPublic := true })).serialize (some g!"c") = .err :=
  ⟨_, rfl, by decide +kernel, rfl⟩

end Verif.Props.Ser
