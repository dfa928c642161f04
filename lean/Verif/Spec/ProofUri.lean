import Verif.Spec.Uri
import Verif.Model.DPoP

/-! Which URIs a request is a call of. -/
namespace Verif.Spec

/-- The request that a server gets from a client that calls the URI `c` directly (RFC 9110 §4.2, RFC 9112 §3.2): the
scheme is the one of the connection, the host is in the `Host` header, and the path, which is never
empty, is what the percent-encoded path of the URI stands for. -/
structure Calls (c : UriParts) (t : DPoP.Target) : Prop where
  scheme : c.scheme.map asciiLower = if t.tls then g!"https" else g!"http"
  host : IsHost c.authority t.host
  path : t.path = pct (if c.path = [] then g!"/" else c.path)
  direct : t.forwardedScheme = []

/-- ALPHA and DIGIT of RFC 3986. -/
def letterOrDigit (b : UInt8) : Bool := (65 ≤ b && b ≤ 90) || (97 ≤ b && b ≤ 122) || (48 ≤ b && b ≤ 57)

/-- A host, or host and port, of letters, digits and the characters of RFC 3986 §3.2.2 but percent signs. -/
def PlainHost (h : Str) : Prop := h ≠ [] ∧ ∀ b ∈ h, letterOrDigit b = true ∨ b ∈ g!"-._~!$&'()*+,;=:[]"

/-- Characters that RFC 3986 §3.3 allows in a path as they are, and brackets, which Go allows too. -/
def pathChar (b : UInt8) : Bool := letterOrDigit b || decide (b ∈ g!"-._~!$&'()*+,;=:@/[]")

end Verif.Spec
