import Verif.Go.Str

/-!
The part of Go's `net/url` and `net/http` that the code runs on URLs: `url.ParseRequestURI`,
`url.Parse`, `(*URL).String`, `url.Values.Encode`, `url.ParseQuery` and `http.Redirect`
(Go 1.22, the toolchain of go.mod). These libraries are not part of the project; the
definitions transcribe their published source.
-/
namespace Verif.Url

/-- `encoding` (net/url/url.go). `encodePathSegment` is not used by the code. -/
inductive Mode where
  | path | userPassword | host | zone | queryComponent | fragment
deriving DecidableEq, Repr

def isAlpha (c : UInt8) : Bool := (97 ≤ c && c ≤ 122) || (65 ≤ c && c ≤ 90)
def isDigit (c : UInt8) : Bool := 48 ≤ c && c ≤ 57

/-- `shouldEscape`. -/
def shouldEscape (m : Mode) (c : UInt8) : Bool :=
  if isAlpha c || isDigit c then false
  else if (m = .host ∨ m = .zone) ∧ c ∈ g!"!$&'()*+,;=:[]<>\"" then false
  else if c ∈ g!"-_.~" then false
  else if c ∈ g!"$&+,/:;=?@" ∧ m = .path then c = 63
  else if c ∈ g!"$&+,/:;=?@" ∧ m = .userPassword then decide (c ∈ g!"@/?:")
  else if c ∈ g!"$&+,/:;=?@" ∧ m = .queryComponent then true
  else if c ∈ g!"$&+,/:;=?@" ∧ m = .fragment then false
  else if m = .fragment ∧ c ∈ g!"!()*" then false
  else true

/-- `ishex`. -/
def ishex (c : UInt8) : Bool := isDigit c || (97 ≤ c && c ≤ 102) || (65 ≤ c && c ≤ 70)

/-- `unhex`. -/
def unhex (c : UInt8) : UInt8 :=
  if isDigit c then c - 48
  else if 97 ≤ c && c ≤ 102 then c - 97 + 10
  else if 65 ≤ c && c ≤ 70 then c - 65 + 10
  else 0

/-- `upperhex[n]`. -/
def upperhex (n : UInt8) : UInt8 := if n < 10 then 48 + n else 55 + n

/-- The escapes that `unescape` refuses in hosts and zones. -/
def badEscape (m : Mode) (a b : UInt8) : Bool :=
  if m = .host then unhex a < 8 && !(a = 50 && b = 53)
  else if m = .zone then
    !(a = 50 && b = 53) && unhex a * 16 + unhex b ≠ 32 && shouldEscape .host (unhex a * 16 + unhex b)
  else false

/-- The bytes that `unescape` refuses in hosts and zones. -/
def badByte (m : Mode) (c : UInt8) : Bool :=
  (m = .host || m = .zone) && c < 128 && shouldEscape m c

/-- `unescape`; `none` is an error. -/
def unescape (m : Mode) : Str → Option Str
  | [] => some []
  | c :: s =>
    if c = 37 then
      match s with
      | a :: b :: s => if !ishex a || !ishex b || badEscape m a b then none else (unescape m s).map ((unhex a * 16 + unhex b) :: ·)
      | _ => none
    else if c = 43 then (unescape m s).map ((if m = .queryComponent then 32 else 43) :: ·)
    else if badByte m c then none
    else (unescape m s).map (c :: ·)

/-- `escape` on one byte. -/
def escapeByte (m : Mode) (c : UInt8) : Str :=
  if c = 32 ∧ m = .queryComponent then [43]
  else if shouldEscape m c then [37, upperhex (c / 16), upperhex (c % 16)]
  else [c]

/-- `escape`. -/
def escape (m : Mode) (s : Str) : Str := s.flatMap (escapeByte m)

/-- `strings.Cut(s, c)` without its third result. -/
def cut (c : UInt8) (s : Str) : Str × Str := (s.takeWhile (· ≠ c), (s.dropWhile (· ≠ c)).drop 1)

/-- `s[:i], s[i+1:]` for `i := strings.LastIndex(s, c)`, `none` for `i < 0`. -/
def cutLast (c : UInt8) : Str → Option (Str × Str)
  | [] => none
  | b :: s =>
    match cutLast c s with
    | some (x, y) => some (b :: x, y)
    | none => if b = c then some ([], s) else none

/-- `s[:i], s[i:]` for `i := strings.Index(s, "%25")`, `none` for `i < 0`. -/
def cutZone : Str → Option (Str × Str)
  | [] => none
  | b :: s =>
    if (b :: s).take 3 = g!"%25" then some ([], b :: s)
    else match cutZone s with
      | some (x, y) => some (b :: x, y)
      | none => none

/-- `url.URL`; `user` is the username and, if set, the password. -/
structure URL where
  scheme : Str := []
  opq : Str := []
  user : Option (Str × Option Str) := none
  host : Str := []
  path : Str := []
  rawPath : Str := []
  omitHost : Bool := false
  forceQuery : Bool := false
  rawQuery : Str := []
  fragment : Str := []
deriving DecidableEq, Repr

def isSchemeByte (c : UInt8) : Bool := isAlpha c || isDigit c || c = 43 || c = 45 || c = 46

/-- `getScheme`: the scheme, empty if there is none, and the rest. -/
def getScheme (raw : Str) : Option (Str × Str) :=
  match raw.dropWhile isSchemeByte with
  | 58 :: rest =>
    match raw.takeWhile isSchemeByte with
    | [] => none
    | c :: p => if isAlpha c then some (c :: p, rest) else some ([], raw)
  | _ => some ([], raw)

/-- `strings.ToLower` on a scheme, which is ASCII. -/
def lowerByte (c : UInt8) : UInt8 := if 65 ≤ c && c ≤ 90 then c + 32 else c

/-- `validOptionalPort`. -/
def validOptionalPort : Str → Bool
  | [] => true
  | c :: s => c = 58 && s.all isDigit

/-- `parseHost`. -/
def parseHost (host : Str) : Option Str :=
  if host.head? = some 91 then
    match cutLast 93 host with
    | none => none
    | some (pre, port) =>
      if !validOptionalPort port then none
      else match cutZone pre with
        | some (a, b) =>
          match unescape .host a, unescape .zone b, unescape .host (93 :: port) with
          | some x, some y, some z => some (x ++ y ++ z)
          | _, _, _ => none
        | none => unescape .host host
  else match cutLast 58 host with
    | some (_, port) => if !port.all isDigit then none else unescape .host host
    | none => unescape .host host

/-- `validUserinfo`. -/
def validUserinfo (s : Str) : Bool :=
  s.all fun c => isAlpha c || isDigit c || decide (c ∈ g!"-._:~!$&'()*+,;=%@")

/-- `parseAuthority`. -/
def parseAuthority (a : Str) : Option (Option (Str × Option Str) × Str) :=
  match cutLast 64 a with
  | none => (parseHost a).map fun h => (none, h)
  | some (ui, h) =>
    match parseHost h with
    | none => none
    | some host =>
      if !validUserinfo ui then none
      else if 58 ∈ ui then
        match unescape .userPassword (cut 58 ui).1, unescape .userPassword (cut 58 ui).2 with
        | some x, some y => some (some (x, some y), host)
        | _, _ => none
      else (unescape .userPassword ui).map fun x => (some (x, none), host)

/-- `(*URL).setPath`. -/
def setPath (u : URL) (p : Str) : Option URL :=
  (unescape .path p).map fun path => { u with path, rawPath := if p = escape .path path then [] else p }

/-- `stringContainsCTLByte`. -/
def hasCTL (s : Str) : Bool := s.any fun b => b < 32 || b = 127

/-- `parse` behind the scheme and the query. -/
def parseRest (viaRequest : Bool) (u : URL) (rest : Str) : Option URL :=
  if rest.head? ≠ some 47 ∧ u.scheme ≠ [] then some { u with opq := rest }
  else if rest.head? ≠ some 47 ∧ viaRequest then none
  else if rest.head? ≠ some 47 ∧ 58 ∈ (cut 47 rest).1 then none
  else if (u.scheme ≠ [] ∨ viaRequest = false ∧ rest.take 3 ≠ g!"///") ∧ rest.take 2 = g!"//" then
    let auth := (rest.drop 2).takeWhile (· ≠ 47)
    match parseAuthority auth with
    | none => none
    | some (user, host) => setPath { u with user, host } ((rest.drop 2).dropWhile (· ≠ 47))
  else setPath { u with omitHost := u.scheme ≠ [] && decide (rest.head? = some 47) } rest

/-- `parse`. -/
def parse (viaRequest : Bool) (raw : Str) : Option URL :=
  if hasCTL raw then none
  else if raw = [] ∧ viaRequest then none
  else if raw = g!"*" then some { path := g!"*" }
  else match getScheme raw with
    | none => none
    | some (sch, rest) =>
      let u : URL := { scheme := sch.map lowerByte }
      if rest.getLast? = some 63 ∧ rest.count 63 = 1 then
        parseRest viaRequest { u with forceQuery := true } rest.dropLast
      else parseRest viaRequest { u with rawQuery := (cut 63 rest).2 } (cut 63 rest).1

/-- `url.ParseRequestURI`. -/
def parseRequestURI (raw : Str) : Option URL := parse true raw

/-- `url.Parse`. The raw form of the fragment is not kept: no modelled function prints a
parsed fragment. -/
def parseURL (raw : Str) : Option URL :=
  match parse false (cut 35 raw).1 with
  | none => none
  | some u => (unescape .fragment (cut 35 raw).2).map fun f => { u with fragment := f }

/-- `validEncoded(s, encodePath)`. -/
def validEncodedPath (s : Str) : Bool :=
  s.all fun c => decide (c ∈ g!"!$&'()*+,;=:@[]%") || !shouldEscape .path c

/-- `(*URL).EscapedPath`. -/
def URL.escapedPath (u : URL) : Str :=
  if u.rawPath ≠ [] ∧ validEncodedPath u.rawPath = true ∧ unescape .path u.rawPath = some u.path then u.rawPath
  else if u.path = g!"*" then g!"*"
  else escape .path u.path

/-- `(*Userinfo).String`. -/
def userString : Str × Option Str → Str
  | (n, none) => escape .userPassword n
  | (n, some p) => escape .userPassword n ++ [58] ++ escape .userPassword p

/-- The authority that `(*URL).String` writes, with the leading slashes. -/
def URL.authorityPart (u : URL) : Str :=
  if u.scheme = [] ∧ u.host = [] ∧ u.user = none then []
  else if u.omitHost = true ∧ u.host = [] ∧ u.user = none then []
  else (if u.host ≠ [] ∨ u.path ≠ [] ∨ u.user ≠ none then g!"//" else []) ++
    (match u.user with
      | some ui => userString ui ++ [64]
      | none => []) ++ escape .host u.host

/-- What `(*URL).String` writes before the query. -/
def URL.front (u : URL) : Str :=
  let sch := if u.scheme = [] then [] else u.scheme ++ [58]
  if u.opq ≠ [] then sch ++ u.opq
  else
    let buf := sch ++ u.authorityPart
    let path := u.escapedPath
    let buf := if path ≠ [] ∧ path.head? ≠ some 47 ∧ u.host ≠ [] then buf ++ [47] else buf
    let buf := if buf = [] ∧ 58 ∈ (cut 47 path).1 then g!"./" else buf
    buf ++ path

/-- `(*URL).String`; a fragment that was set by `u.Fragment = …` has no raw form. -/
def URL.str (u : URL) : Str :=
  u.front ++ (if u.forceQuery = true ∨ u.rawQuery ≠ [] then 63 :: u.rawQuery else []) ++
    (if u.fragment ≠ [] then 35 :: escape .fragment u.fragment else [])

/-! ### Parameters -/

/-- The order of `sort.Strings`. -/
def strLe : Str → Str → Bool
  | [], _ => true
  | _ :: _, [] => false
  | a :: s, b :: t => a < b || (a = b && strLe s t)

/-- One step of an insertion sort by key. -/
def insertKey (x : Str × Str) : List (Str × Str) → List (Str × Str)
  | [] => [x]
  | y :: l => if strLe x.1 y.1 then x :: y :: l else y :: insertKey x l

/-- The parameters in the order of their keys. -/
def sortKeys (l : List (Str × Str)) : List (Str × Str) := l.foldr insertKey []

/-- One `key=value`. -/
def pair (x : Str × Str) : Str := escape .queryComponent x.1 ++ [61] ++ escape .queryComponent x.2

/-- `url.Values.Encode` for parameters with one value each. -/
def encode (l : List (Str × Str)) : Str := (g!"&").intercalate ((sortKeys l).map pair)

/-- Pieces of `s` between the occurrences of `c`. -/
def splitOn (c : UInt8) : Str → List Str
  | [] => [[]]
  | b :: s =>
    if b = c then [] :: splitOn c s
    else match splitOn c s with
      | [] => [[b]]
      | x :: l => (b :: x) :: l

/-- The loop body of `parseQuery`: what one piece adds. -/
def parsePair (p : Str) : Option (Str × Str) :=
  if 59 ∈ p then none
  else if p = [] then none
  else match unescape .queryComponent (cut 61 p).1, unescape .queryComponent (cut 61 p).2 with
    | some k, some v => some (k, v)
    | _, _ => none

/-- `url.ParseQuery`, errors ignored: the parameters in the order they appear. -/
def parseQuery (q : Str) : List (Str × Str) := (splitOn 38 q).filterMap parsePair

/-- `url.Values.Get` on parsed parameters: the first value, `none` if absent. -/
def first (l : List (Str × Str)) (k : Str) : Option Str := l.lookup k

/-! ### Redirections -/

/-- The segments of a rooted path after `path.Clean`, last first. -/
def cleanSegs : List Str → List Str → List Str
  | acc, [] => acc
  | acc, s :: l =>
    if s = [] ∨ s = g!"." then cleanSegs acc l
    else if s = g!".." then cleanSegs (acc.drop 1) l
    else cleanSegs (s :: acc) l

/-- `path.Clean` of a path that begins with a slash. -/
def cleanPath (p : Str) : Str :=
  47 :: (g!"/").intercalate (cleanSegs [] (splitOn 47 (p.drop 1))).reverse

/-- `http.Redirect`: relative URLs are completed with the directory of the request path
and cleaned. -/
def relative (dir url : Str) : Str :=
  let url := if url.head? ≠ some 47 then dir ++ url else url
  let p := (cut 63 url).1
  let query := url.drop p.length
  let c := cleanPath p
  (if p.getLast? = some 47 ∧ c.getLast? ≠ some 47 then c ++ [47] else c) ++ query

/-- `hexEscapeNonASCII`. -/
def hexEscapeNonASCII (s : Str) : Str :=
  s.flatMap fun b => if 128 ≤ b then [37, lowerhex (b / 16), lowerhex (b % 16)] else [b]
where
  /-- `strconv.AppendInt(…, 16)` on a digit -/
  lowerhex (n : UInt8) : UInt8 := if n < 10 then 48 + n else 87 + n

/-- `http.Redirect`: the `Location` header, for a request in the directory `dir`. -/
def redirect (dir url : Str) : Str :=
  hexEscapeNonASCII <|
    match parseURL url with
    | some u => if u.scheme = [] ∧ u.host = [] then relative dir url else url
    | none => url

/-- handlers/authorization.go:136-186: the redirection to a redirect URI with parameters, for
a request in the directory `dir`; the query of the redirect URI is replaced. -/
def location (dir uri : Str) (params : List (Str × Str)) : Option Str :=
  (parseRequestURI uri).map fun u => redirect dir ({ u with rawQuery := encode params } : URL).str

/-- handlers/authorization.go:191-217: the redirection with the parameters in the fragment. -/
def fragmentLocation (dir uri : Str) (params : List (Str × Str)) : Option Str :=
  (parseRequestURI uri).map fun u => redirect dir ({ u with fragment := encode params } : URL).str

/-- handlers/authorization.go:219-252: the address that the form of `form_post.jwt` is sent to, as it is
handed to the page template. -/
def formAction (uri : Str) : Option Str := (parseRequestURI uri).map URL.str

/-- What the services get from `net/url`: `Env.urlString` is `String` of the parsed text. -/
def urlString (s : Str) : Option Str := (parseRequestURI s).map URL.str

end Verif.Url
