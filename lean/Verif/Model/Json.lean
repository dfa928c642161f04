import Verif.Model.Headers
import Verif.Model.RequestObject

/-!
The JSON texts of the answers (`examples/authorizationserver/respond/helpers.go`, lines
29-58): `jsoniter.ConfigCompatibleWithStandardLibrary.Marshal`
(github.com/json-iterator/go v1.1.12) for structures and maps, and
`protojson.MarshalOptions.Marshal` (google.golang.org/protobuf v1.34.0,
`internal/encoding/json/encode.go`) for messages, whose `MarshalJSON` `jsoniter` calls and whose
output it takes as it is.
-/
namespace Verif.Json
open Verif.Http Verif.Discovery

/-- A hexadecimal digit. -/
def hex (n : Nat) : UInt8 := if n < 10 then (48 + n).toUInt8 else (87 + n).toUInt8

/-! ### jsoniter -/

/-- stream_str.go `htmlSafeSet`: printable ASCII and DEL except `"`, `&`, `<`, `>` and `\`. -/
def htmlSafe (b : UInt8) : Bool := 32 ≤ b && b < 0x80 && b ≠ 34 && b ≠ 38 && b ≠ 60 && b ≠ 62 && b ≠ 92

/-- stream_str.go `writeStringSlowPathWithHTMLEscaped`: what is written for one rune, given by
its bytes. -/
def piece (c : Str) : Str :=
  match c with
  | [b] =>
    if b < 0x80 then
      if htmlSafe b then [b]
      else if b = 92 ∨ b = 34 then [92, b]
      else if b = 10 then g!"\\n"
      else if b = 13 then g!"\\r"
      else if b = 9 then g!"\\t"
      else g!"\\u00" ++ [hex (b.toNat / 16), hex (b.toNat % 16)]
    else g!"\\ufffd"
  | c => if Go.runeOf c = 0x2028 ∨ Go.runeOf c = 0x2029 then g!"\\u202" ++ [hex (Go.runeOf c % 16)] else c

/-- stream_str.go `WriteStringWithHTMLEscaped`. -/
def quote (s : Str) : Str := 34 :: (Go.chunks s).flatMap piece ++ [34]

/-- Texts with commas between. -/
def commas (sep : Str) : List Str → Str
  | [] => []
  | [t] => t
  | t :: l => t ++ sep ++ commas sep l

/-- A structure or a map whose values are written already; `jsoniter` writes the fields of a
structure in their order and the keys of a map sorted. -/
def object (l : List (Str × Str)) : Str :=
  123 :: commas [44] (l.map fun m => quote m.1 ++ 58 :: m.2) ++ [125]

/-- `stream.WriteUint64`. -/
def uint (n : Nat) : Str := RequestObject.decimal n

def bool (b : Bool) : Str := if b then g!"true" else g!"false"

/-! ### protojson -/

/-- encode.go `appendString`: what is written for one rune; bytes that are not UTF-8 are an error. -/
def ppiece (c : Str) : Option Str :=
  match c with
  | [b] =>
    if b < 0x80 then
      if b = 34 ∨ b = 92 then some [92, b]
      else if 32 ≤ b then some [b]
      else if b = 8 then some g!"\\b"
      else if b = 12 then some g!"\\f"
      else if b = 10 then some g!"\\n"
      else if b = 13 then some g!"\\r"
      else if b = 9 then some g!"\\t"
      else some (g!"\\u00" ++ [hex (b.toNat / 16), hex (b.toNat % 16)])
    else none
  | c => some c

def pquote (s : Str) : Option Str := ((Go.chunks s).mapM ppiece).map fun l => 34 :: l.flatten ++ [34]

/-- What separates members: protojson writes a space behind the comma in some builds
(`detrand.Bool`). -/
def comma (space : Bool) : Str := if space then g!", " else g!","

def strs (space : Bool) (l : List Str) : Option Str :=
  (l.mapM pquote).map fun l => 91 :: commas (comma space) l ++ [93]

mutual
/-- The text of a field. Numbers and arrays of something else do not occur. -/
def field (space : Bool) : JVal → Option Str
  | .null => some g!"null"
  | .bool b => some (bool b)
  | .str s => pquote s
  | .strs l => strs space l
  | .msg l => (members space l).map fun l => 123 :: commas (comma space) l ++ [125]
  | .other => none

/-- The texts of the members. -/
def members (space : Bool) : List (Str × JVal) → Option (List Str)
  | [] => some []
  | (k, v) :: l =>
    match pquote k, field space v, members space l with
    | some k, some v, some l => some ((k ++ 58 :: v) :: l)
    | _, _, _ => none
end

/-- `MarshalJSON` of a message. -/
def message (space : Bool) (l : List (Str × JVal)) : Option Str := field space (.msg l)

/-! ### The answers -/

/-- respond/helpers.go:33, 47: `body, _ := json.Marshal(…)`; nothing is written after an error. -/
def orEmpty (t : Option Str) : Str := t.getD []

/-- respond/helpers.go:29-44 `WithError`. -/
def errorText (space : Bool) (e : OErr) : Str := orEmpty (message space (errorBody e))

/-- handlers/metadata.go:98 `WithJSON` of the metadata. -/
def metadataText (space : Bool) (m : Pb.ServerMetadata) : Str := orEmpty (message space (ServerMetadata.toJson m))

/-- handlers/token.go:40-46, with `omitempty` on the refresh token. -/
def tokensText (b : TokenBody) : Str :=
  object ([(g!"access_token", quote b.accessToken), (g!"expires_in", uint b.expiresIn), (g!"token_type", quote b.tokenType)] ++
    (if b.refreshToken = [] then [] else [(g!"refresh_token", quote b.refreshToken)]) ++
    [(g!"scope", quote b.scope)])

/-- handlers/token_introspection.go:84-86: the member `cnf`. -/
def cnfText (space : Bool) : Option Cnf → Option (List (Str × Str))
  | none => some []
  | some k => (message space [(g!"jkt", .str k.jkt)]).map fun t => [(g!"cnf", t)]

/-- handlers/token_introspection.go:64-97: a map. An error of the message for `cnf` is an error
of the whole. -/
def activeText (space : Bool) (b : ActiveBody) : Option Str :=
  (cnfText space b.cnf).map fun cnf =>
    object ((b.acr.map fun s => (g!"acr", quote s)).toList ++
      [(g!"active", bool true), (g!"aud", quote b.aud)] ++
      (b.authTime.map fun n => (g!"auth_time", uint n)).toList ++
      [(g!"client_id", quote b.clientId)] ++ cnf ++
      [(g!"exp", uint b.exp), (g!"iat", uint b.iat), (g!"iss", quote b.iss), (g!"jti", quote b.jti), (g!"nbf", uint b.nbf),
       (g!"scope", quote b.scope), (g!"sub", quote b.sub), (g!"token_type", quote b.tokenType)])

def introspectionText (space : Bool) : Option ActiveBody → Str
  | none => object [(g!"active", bool false)]
  | some b => orEmpty (activeText space b)

/-- handlers/device_authorization.go:33-39. -/
def deviceText (deviceCode userCode verificationUri : Str) (expiresIn interval : Nat) : Str :=
  object [(g!"device_code", quote deviceCode), (g!"user_code", quote userCode), (g!"verification_uri", quote verificationUri),
    (g!"expires_in", uint expiresIn), (g!"interval", uint interval)]

/-- handlers/par.go:42-46. -/
def parText (issuer requestUri : Str) (expiresIn : Nat) : Str :=
  object [(g!"issuer", quote issuer), (g!"request_uri", quote requestUri), (g!"expires_in", uint expiresIn)]

/-- The text of an answer, if it is JSON; errors are given without a state. -/
def bodyText (space : Bool) : Body → Option Str
  | .error c => some (errorText space { code := c })
  | .tokens b => some (tokensText b)
  | .introspection b => some (introspectionText space b)
  | .device dc uc page e i => some (deviceText dc uc page e i)
  | .par i u n => some (parText i u n)
  | _ => none

end Verif.Json
