import Verif.Spec.Json
import Verif.Model.Discovery

/-!
What the answers of the server say, by the specifications that define their members.
-/
namespace Verif.Spec.Json
open Verif.Http Verif.Discovery

/-- RFC 6749, section 5.1: a refresh token is named only if there is one. -/
def tokenMembers (b : TokenBody) : List (Str × Datum) :=
  [(g!"access_token", .str b.accessToken), (g!"expires_in", .num b.expiresIn), (g!"token_type", .str b.tokenType)] ++
    (if b.refreshToken = [] then [] else [(g!"refresh_token", .str b.refreshToken)]) ++ [(g!"scope", .str b.scope)]

/-- RFC 7662, section 2.2, with RFC 9449, section 6.2, and RFC 9470, section 6.2. -/
def activeMembers (b : ActiveBody) : List (Str × Datum) :=
  (b.acr.map fun s => (g!"acr", .str s)).toList ++ [(g!"active", .bool true), (g!"aud", .str b.aud)] ++
    (b.authTime.map fun n => (g!"auth_time", .num n)).toList ++ [(g!"client_id", .str b.clientId)] ++
    (b.cnf.map fun k => (g!"cnf", .obj [(g!"jkt", .str k.jkt)])).toList ++
    [(g!"exp", .num b.exp), (g!"iat", .num b.iat), (g!"iss", .str b.iss), (g!"jti", .str b.jti), (g!"nbf", .num b.nbf),
     (g!"scope", .str b.scope), (g!"sub", .str b.sub), (g!"token_type", .str b.tokenType)]

/-- RFC 8628, section 3.2. -/
def deviceMembers (deviceCode userCode verificationUri : Str) (expiresIn interval : Nat) : List (Str × Datum) :=
  [(g!"device_code", .str deviceCode), (g!"user_code", .str userCode), (g!"verification_uri", .str verificationUri),
   (g!"expires_in", .num expiresIn), (g!"interval", .num interval)]

/-- RFC 9126, section 2.2, and the issuer. -/
def parMembers (issuer requestUri : Str) (expiresIn : Nat) : List (Str × Datum) :=
  [(g!"issuer", .str issuer), (g!"request_uri", .str requestUri), (g!"expires_in", .num expiresIn)]

/-- RFC 6749, section 5.2, but for the name of the first member (C77). -/
def errorMembers (e : OErr) : List (Str × Datum) :=
  [(g!"err", .str (codeText e.code)), (g!"error_description", .str (description e.code))] ++
    (e.state.map fun s => (g!"state", .str s)).toList

/-- What an answer says, if it is JSON. -/
def answer : Body → Option Datum
  | .error c => some (.obj (errorMembers { code := c }))
  | .tokens b => some (.obj (tokenMembers b))
  | .introspection none => some (.obj [(g!"active", .bool false)])
  | .introspection (some b) => some (.obj (activeMembers b))
  | .device dc uc page e i => some (.obj (deviceMembers dc uc page e i))
  | .par i u n => some (.obj (parMembers i u n))
  | _ => none

/-- The numbers fit in 64 bits, as they do in Go. -/
def Fits : Body → Prop
  | .tokens b => b.expiresIn < 2 ^ 64
  | .introspection (some b) => b.exp < 2 ^ 64 ∧ b.iat < 2 ^ 64 ∧ b.nbf < 2 ^ 64 ∧ ∀ n, b.authTime = some n → n < 2 ^ 64
  | .device _ _ _ e i => e < 2 ^ 64 ∧ i < 2 ^ 64
  | .par _ _ n => n < 2 ^ 64
  | _ => True

/-- The thumbprint of the key is UTF-8. -/
def ThumbUtf8 : Body → Prop
  | .introspection (some b) => ∀ k, b.cnf = some k → Utf8 k.jkt
  | _ => True

mutual
/-- The datum of a JSON value of a message. -/
def Datum.ofJVal : JVal → Datum
  | .null => .null
  | .bool b => .bool b
  | .str s => .str s
  | .strs l => .arr (l.map .str)
  | .msg l => .obj (Datum.ofMembers l)
  | .other => .null

def Datum.ofMembers : List (Str × JVal) → List (Str × Datum)
  | [] => []
  | (k, v) :: l => (k, Datum.ofJVal v) :: Datum.ofMembers l
end

end Verif.Spec.Json
