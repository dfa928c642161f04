# Formal model of zntrio/solid — design

Lean 4 (4.33.0) model and proofs of the authorization-server SDK in `/repo`.
Sources live in `lean/Verif/`; `lake build` in `lean/` checks everything.

## 1. How the code is modelled

* **Strings** are byte lists (`Str = List UInt8`), so `len`, concatenation and
  slicing mean what they mean in Go.
* **Errors** are values. A Go pair `(response, err)` becomes a record with the
  response fields plus a flag `goErr` telling whether `err != nil`.
* **nil** is `Option.none`; dereferencing nil and out-of-range indexing are the
  explicit program outcome `panic`.
* **Service functions** (`server/services/...`) are *programs* (`Prog`): finite
  trees whose nodes are the calls the Go code makes on its interfaces (client
  store, code store, token store, generators, clock, random source) in the same
  order, and whose edges are the possible answers of these calls.  One program
  has three semantics:
  1. *open*: every call may answer anything its Go signature allows (any store,
     any failure).  Theorems about a single request use this one.
  2. *sequential*: calls answered by the in-memory store model
     (`server/storage/inmemory`), one request after the other, arbitrary faults
     injected by an oracle, arbitrary passage of time between calls.
  3. *concurrent*: any number of requests in flight, any interleaving at call
     granularity, crash of any request at any call, arbitrary faults and time.
* **Time** is a natural number of nanoseconds; `Unix()` is integer division by
  10^9. Entries of `go-cache` are readable while `now <= insertion + TTL`.
* **Cryptography** (SHA-256, BLAKE2b, HMAC, HKDF, signature schemes) is a
  parameter (uninterpreted function).  Where a theorem needs "no collision",
  this is a named hypothesis of the theorem, restricted to the inputs involved
  where possible.
* **Random generators** are an oracle: theorems quantify over its answers.
  Where freshness is needed it is a named hypothesis.

## 2. Trusted base

* **Lean's kernel** (4.33.0) and the axioms `propext`, `Classical.choice`,
  `Quot.sound`. `AXIOMS.md` lists the axioms of every theorem named in
  `MANIFEST.json` (output of `#print axioms`). There is no other axiom, no
  `sorry`, no `native_decide`, no `bv_decide`, no `implemented_by`, no `unsafe`.
* **The transcription** from Go to Lean. Every definition of the model cites the
  file and lines it transcribes.
* **Call granularity.** One call on an interface (store, generator, clock,
  random source) is one atomic step of the concurrent semantics. The in-memory
  stores are `go-cache` maps with a mutex; a store call that touches two maps is
  one step. For the token store this is proved (C115); it is assumed for `Register` and
  `Validate` of the device store.
* **Parameters.** What is not transcribed enters as a parameter of the model and
  every theorem is stated for all values of it. Laws assumed of a parameter are
  hypotheses of the theorem that needs them and are shown to be satisfiable by an
  example. The table lists them.

| part | treatment |
|---|---|
| SHA-256, BLAKE2b, HMAC, HKDF | arbitrary functions; collision freedom is a hypothesis where needed, about the inputs at hand only. `Go/Sha256`, `Go/Blake2b` write them out: they satisfy what is assumed and collide somewhere (C114) |
| go-jose: parsing, signing, verification, JWK decoding | `Jose.Jws` (header fields, `verifies`), `Sign.Lib` with the law `Lawful` (what is signed can be verified and decoded) |
| JSON encoding and decoding | arbitrary decoders; the protojson rules for authorization requests are transcribed (`Model/RequestObject`), the syntax they are read from is not. The texts of the answers are modelled byte by byte (`Model/Json`, C106); the sources of jsoniter, protojson and go-jose (the encoding of keys, `Model/Keys`, C107) are not part of this repository, so their escaping rules are written down from knowledge of those libraries and are trusted |
| `uniuri`, UUIDs, random bytes | oracle answers |
| URL parsing and printing (`net/url`), `http.Redirect` | parameters of the services (`parseRequestURI`, `urlString`); C94 is about a transcription of the Go 1.22 functions (`Model/Url.lean`), which is trusted to be exact; the redirect URI of a form_post page is a parameter |
| `net/http` | requests as records (method, path, query, form, headers); answers as status, headers, body value |
| HTML templates, logging, tracing | not modelled (no effect on answers) |

### Simplifications

* Letter case. UTF-8 decoding, white space and the runes that are related to ASCII
  letters (U+0130, U+0131, U+017F, U+212A) are exact in `strings.EqualFold`,
  `ToLower`, `ToUpper`, `Fields` and `TrimSpace`. The case tables of Unicode for all
  other runes are opaque constants, that is, arbitrary functions which never give ASCII.
* `inmemory` token and device stores return the stored pointer. The model copies
  at lookup. The services modelled change a looked-up value only right before they
  store it again, so no difference can be observed at call granularity.
  One exception: overlapping authorization requests that refer to the same pushed request share
  the object, and the scope clean-up of the second one is seen by the session of the first one.
  Cleaning twice differs from cleaning once only for a scope that repeats `offline_access`; the
  session then loses one more of the repetitions than the model says.
* Times are natural numbers; there is no wrap-around of `int64` and no time before 1970.
* The store of the model keys its maps by the derived key, as the code does; the
  number of entries is not bounded.
* In the wire codec `nil` and empty byte strings are one value, `nil` elements of
  repeated fields and `nil` inside a `oneof` do not occur.

### What is modelled

| code | model |
|---|---|
| `sdk/types` string array, constant-time compare | `Model/StringArray`, `Model/Lib` |
| `server/services/authorization` | `Model/Authorization` |
| `server/services/token` (all grants, introspection, revocation) | `Model/Token` |
| `server/services/device` | `Model/Device` |
| `server/storage/inmemory`, `server/storage` key derivation | `Model/Store`, `Model/TokenStore` |
| `server/clientauthentication` | `Model/ClientAuth` |
| `sdk/dpop`, `sdk/jarm`, `sdk/token/jwt` signers and verifiers | `Model/DPoP`, `Model/Sign`, `Model/Jose` |
| `sdk/generator`, `sdk/token` payload generators, `sdk/pkce` | `Model/Lib`, `Model/TokenGen` |
| `sdk/jwsreq` | `Model/RequestObject` |
| `oidc`, pairwise subjects | `Model/Oidc` |
| `sdk/token/verifiable`-style identifiers, base62 | `Model/Verifiable` |
| `examples/authorizationserver` handlers and middleware | `Model/Http` |
| `examples/authorizationserver/main.go`, requests in flight | `Model/HttpSystem` |
| `examples/resourceserver` middleware, `client` introspection | `Model/ResourceServer` |
| `client` (assertions, client credentials, key sets), `examples/attestation*`, the registered clients | `Model/Client` |
| server metadata, routes, error bodies, JSON codec of `corev1.Error` and `discoveryv1.ServerMetadata`, constructor of the client | `Model/Discovery` |
| `api/oidc/**/*_vtproto.pb.go` | `Model/Wire`, `Model/Pb`, `Model/PbMap` |
| clients and resources of the in-memory stores, registration of clients | `Model/Registry`, `Model/Resources`, `Model/ClientStore` |
| `server/profile` | `Model/Profile` |
| JSON texts of the answers, key sets | `Model/Json`, `Model/Keys` |
| `sdk/token/jwt`, `cwt`, `paseto` serializers, encryption around them | `Model/Serializers` |
| `sdk/randomness`, `uniuri` | `Model/LockedRand`, `Model/Uniuri` |

Not modelled: CLI programs and their configuration, HTML pages, the byte formats of PASETO,
CWT and encrypted tokens, the test helpers, generated gRPC stubs.

## 3. Plan per property

Status is kept in `MANIFEST.json`; this table says how each property is
expressed.

| id | model | method |
|----|-------|--------|
| C01 C02 C03 C16 C18 | `Authorize`/`Register`/`validate` programs, open semantics | symbolic execution of the program over all answers; specification predicates written separately |
| C04 C06 C07 C11 | code store + token endpoint, sequential and concurrent semantics | invariant by induction over histories / interleavings |
| C05 C40 | concurrent semantics | negation by explicit schedule; positive partial result = C06 / C39 |
| C08 C09 C12 C13 | code grant program + store invariant "what is stored was authorized" | trace predicate + history invariant |
| C10 C14 C17 C30 C31 | as above | negation by witness, `_partial` theorem with the missing hypothesis explicit |
| C15 | PAR programs + request cache | history induction |
| C19 C20 C22 C23 C24 C29 C54 C55 | token service programs, open semantics | symbolic execution over all answers |
| C21 | concurrent semantics | invariant over reachable states |
| C25 C26 C27 C28 C71 | token store + refresh/revoke/introspect | invariants over histories, witness for id collisions and foreign revocation |
| C32 | introspection service, response builder and endpoint | decision logic stated outright |
| C33 C49 | key derivation | injectivity for fixed-length values; witness for the ambiguity |
| C34 C35 C36 C37 C70 | device programs + store (heap of sessions) | open semantics; history invariant; witnesses |
| C38 C39 | DPoP verifier | decision logic; two-window argument over histories |
| C41 | JARM encoder/decoder | round trip with abstract signature scheme; refutation for the shipped signer |
| C42 C43 C59 C60 | client authentication | decision logic; witnesses |
| C44 C45 | `sdk/types` | list induction |
| C46 C47 | base62 + verifiable identifiers | round trip; MAC check; witness of panic |
| C48 | PKCE library | base64 length lemma; witness |
| C50 C61 | payload generators | decision logic; composition with the token service |
| C51 | resource server middleware | decision logic; witness of panic |
| C52 | vtproto marshal/unmarshal | round trip by induction |
| C53 | JWKS selection | list induction |
| C56 C58 | code generators | shape lemmas |
| C57 | all services | existence of an execution for every correct client |
| C62 | DPoP prover and verifier | round trip; refutation for the shipped signer |
| C63–C69 | HTTP endpoints of the example server | symbolic execution; witnesses |
| C72 | request object codec | exact decision, round trip by field-wise extensionality |
| C73 | client library against the example server | `Must`: every undisturbed execution of the composed programs ends well; violated for bound tokens |
| C74 | key set cache of the client | invariant over all histories of calls; crash witness |
| C75 | attestation server, its client and the example server | as C73; the shipped algorithms never match |
| C76 | who can introspect | violated for public clients by every healthy execution; converse from C32 |
| C77 | error bodies and the client that reads them | JSON round trip by computation on symbolic messages; member and code violated |
| C78 | metadata requests sharing one description | interleaving semantics of statements; invariant by induction over schedules; two schedules that violate it for every key |
| C79 | metadata against routes and verifiers | decision over the literal for every issuer; DPoP algorithm violated |
| C80 | constructor of the client | composition with the example server; issuer unchecked, mix-up from C73 |
| C81 | endpoints against forms and stores | exact facts of each successful answer, from the facts of the services; approval by calls of every execution |
| C82 | authorization service, exact `EqualFold` | trace predicate; negation for every pair of spellings from the completeness theorem C57 |
| C83 | URL of DPoP proofs, from the request | from C51 and C64; negation for every server and prefix from the completeness theorem C38 |
| C84 | `Verify` of the token verifiers | exact decision; negation for every payload |
| C85 | `LockedRand`, goroutines with single memory accesses | refinement of a system with atomic calls; frozen states for every generator that panics as documented |
| C86 | token serializers and the encryption decorator | libraries are parameters that can be read back; round trip, injectivity, exact decorator; JWT type and CWT crash violated for all inputs |
| C87 | the HTTP server over histories | forward simulation: every history of HTTP requests is simulated by a history of service requests; programs of the routes are layered into reads, service calls and answers |
| C88 | subject of tokens over histories | strong induction over the creations of a history; transferred to HTTP by C87 |
| C89 | code flow over HTTP | C04, C07, C08, C09 and C12 transferred by C87; two concrete histories that violate single use under overlap and the binding to the client |
| C90 | revocation, proofs and devices over HTTP | C27, C39 and C35 transferred by C87 |
| C91 | correct clients get through | each handler, run without faults from any reachable store, gives the answer (weakest-precondition predicate `Good` over programs); frame lemmas carry the code, the request and the token through anything that leaves their keys alone |
| C92 | error codes of the token endpoint | a list of reasons stated on requests and calls, independently of the order of the checks; every execution either has none and succeeds, or has one and tells its code |
| C93 | error codes of the authorization endpoints | as C92, with a list of faults of authorization, pushed authorization and device authorization requests; every fault also occurs alone |
| C94 | where the browser is sent | grammar of absolute URIs (scheme, authority, path, query) with unique reading; the location has the same parts up to percent-encoding, and the response as its query; printable ASCII only |
| C95 | the URL of a DPoP proof | relation between URIs and the requests of their calls (`Spec/ProofUri.lean`); accepted proofs name a URI that the request calls; prover and verifier agree on paths without escapes |
| C96 | statuses and headers of the answers | headers as a map with `Set` and `Get` on canonical names, adapters and helpers as functions on it (`Model/Headers.lean`); refinement of the endpoints without headers; decision over all answers; combined with C68, C82 and C94 for the redirection; names canonicalised as for names made of token characters |
| C97 | requests as texts | grammar of `application/x-www-form-urlencoded` (`Spec/Form.lean`), of which `url.ParseQuery` is a left inverse and `url.Values.Encode` an instance; base64 round trip and inversion for the login; requests of the client library as bytes refine those of C73 and C75 (`Model/Raw.lean`; multipart bodies and the 10 MB bound of `ParseForm` left out) |
| C98 | how hard guessing is | `uniuri` on the bytes it draws (`Model/Uniuri.lean`, after the published algorithm of v1.2.0: buffers of bytes of any sizes, those above the largest multiple of the alphabet's size thrown away); the strings of random bytes are counted (`Spec/Chance.lean`), by induction over batches and characters; the index functions of C17, C56 and C58 cover all outcomes |
| C99 | error codes of client authentication | reasons and prescribed codes (`Spec/ClientErrors.lean`); every run ends in a verdict: refused for the reasons that the trace shows, or none is there |
| C100 | refusals of the resource server | the middleware with the header it sets (`Model/Challenge.lean`, refining that of C51); challenges by the grammar of RFC 9110 (`Spec/Challenge.lean`), which reads every text in at most one way (`challenge_unique`) |
| C101 | signed timestamps | the routes of the resource server (`Model/Timestamp.lean`) behind the middleware of C100; readers check documents by `Spec/Timestamp.lean`; Ed25519 is a parameter, correct for `C101_signed` and unforgeable for `C101_binding` |
| C102 | locality | two runs side by side (`Spec/Locality.lean`): stores agree outside a part given by keys, addresses and token ids; requests are quiet when they present no name of the part; generated strings must be fresh for the issuers served, since keys hash issuer and name without a mark between them |
| C103 | wire format | `Spec/Proto.lean` defines the proto3 encoding and every message by its `.proto` file; the generated encoders are proved to write it |
| C104 | both example servers together | the resource server's client is tied to the history of the authorization server by `Reports` (`Spec/EndToEnd.lean`); from C51, C32, C87, C88 and C90 |
| C105 | `server/storage/inmemory/client.go` `Clients` with the example servers | the registry is transcribed (`Model/Registry.lean`); from C88, C104 and an induction over refreshes |
| C106 | `respond/helpers.go`, the response structures, generated `MarshalJSON` | the writers of jsoniter 1.1.12 and protojson 1.34 are modelled byte by byte (`Model/Json.lean`), JSON is the grammar of RFC 8259 (`Spec/Json.lean`), shown unambiguous; the space protojson may write after commas is a parameter |
| C107 | `settings.go`, `handlers/jwks.go`, the keys written in the example programs and in the client storage | go-jose's encoding and decoding of EC keys on P-384 (`Model/Keys.lean`); JSON texts by what they say (`Spec/Json.lean`), reading of the literal texts by a reader proved sound (`Proofs/JsonRead.lean`); points of the curve by the formulas of SEC 1 (`Spec/P384.lean`) |
| C108 | `UnmarshalVT` of all messages | translation and extension invariance of the field readers (`Proofs/WireMerge.lean`) |
| C109 | `server/profile` with the example server | the profile is transcribed (`Model/Profile.lean`); from C88, C70 and the origin of every stored token, code and device session |
| C110 | token service with the in-memory stores | from the origin of every stored token (`Mints`) and `revoked_stays`, by induction over chains of exchanges; the violation is the completeness of exchange (C57), iterated. The table of resources is transcribed (`Model/Resources.lean`) |
| C111 | client storage with a heap of objects (`Model/ClientStore`), identifiers from random bytes | invariants over sequences of operations; `GetByName` is a relation, true of the result for some order of the map |
| C112 | decoders (`Model/Wire`, `Model/Pb`, `Model/PbMap`), schemas read from the `.proto` files (`Spec/Schema`) | each list of field handlers fits its schema; one record at the end of a valid message |
| C113 | decoders, the merge of two messages field by field (`Spec/Merge`) | every part of an encoding, read into any message, acts on its own field; chain over the parts |
| C114 | SHA-256, HMAC, HKDF, BLAKE2b written out, with the keys of the stores (`Model/Hashes`) | lengths by computation on the shape of the digests; hexadecimal and base64 are injective; collisions because there are finitely many digests |
| C115 | token store access by access, with a heap (`Model/TokenStore`) | forward simulation into the store of the model: `Create` takes effect when the value index is written, `Revoke` when the status is assigned, a lookup when the object is read; negation for lookups by identifier |

## 4. Disagreements between code and property found while modelling

Each item is a theorem.

**Texts of answers.**
An error whose state is not UTF-8 is answered with an empty body, because the error of
`json.Marshal` is dropped (`C106_error_violated`), and so is an introspection request for a
token with such a thumbprint (`C106_thumb_violated`). Invalid bytes are written as U+FFFD, so
different scopes can have the same text (`C106_faithful_violated`). Error answers repeat the
state without escaping markup (`C106_error_markup_violated`).

**Keys.**
`ed25519.GenerateKey` reads 32 bytes of the source it is given. The sources of the attestation server
and of the resource server are texts that differ only behind the 32nd byte, so both servers have the
same key: whoever runs the resource server can attest clients (`C107_shared_violated`).

**Binary encoding.**
A map entry that is declared to end before its key takes the key from the field that follows
(`C52_entry_overrun`); the wire types within an entry are not looked at. Of the number of a record only 32 bits
are looked at, so one that no field can have is taken for another (`C112_number_violated`).

**Authorization codes.**
A code can be redeemed by another client registered with the same redirect URI
(`C10_violated`). Get and Delete are two calls, so two overlapping requests both
redeem one code (`C05_violated`). A failed attempt consumes the code (C11, as
stated). Redirect URIs are compared with `strings.EqualFold`, so codes go to other
spellings, also with U+212A for `k` and malformed bytes (`C82_violated*`). A
duplicated `offline_access` survives the consent check (`C14_violated`). The code
grant without `openid` succeeds with an empty answer.

**Pushed requests.**
The shipped generator makes URIs the shipped check refuses; the flow is dead
(`C17_violated`, `C17_push_flow_dead`). The regular expression is unanchored: `C17_check` says
exactly which texts pass.

**Token service.**
Rotation happens only when the access token would outlive the refresh token
(`C26_reuse_without_rotation`). Revocation looks up by value but stores by token id
without regard to the issuer; an id collision revokes another token
(`C28_violated`). Any client can revoke any token (`C71_violated`). Refresh mints
under the stored issuer; exchange stores under the issuer of the request with
metadata naming the stored issuer, which differ if keys clash (`C33_exchange_violated`). Exchange can widen the scope
(`C30_scope_widening`), reports unusable audiences as success, and panics for
some audiences (C31, C55). Tokens of client credentials, device and exchange are
refused by the signed access token generator (`C61_violated`). Store keys are
hashes of issuer‖value without separator (`C33_violated`). A client with the exchange grant renews an access
token forever (`C110_forever_violated`), and revoking a token leaves active what was made from it or
together with it (`C110_revoke_violated`).

**Device flow.**
Sessions are stored without status and expiry, so the flow never completes
(`C35_never_completes`); over HTTP the first poll is told that the code has expired, although the
codes were said to be good for two minutes (`C35_first_poll_violated`). With a completed session the device code can be redeemed
again (`C37_violated`); overlapping approvals both succeed
(`C36_violated_concurrently`). The audience is dropped (`C34_audience_violated`) and `offline_access`
gives a refresh token without a check of consent (`C34_device_tokens`).

**DPoP, JARM, identifiers.**
Overlapping verifications accept one proof twice (`C40_violated`). The signers
write the header types `dpop` and `jarm`, the verifiers want `dpop+jwt` and
`jarm+jwt`: what the library signs it refuses (`C41_violated`, `C62_violated`). The
prover uses the decoded path, the verifier the escaped one
(`C62_other_url_refused`). The scheme of the URL comes from the `X-Forwarded-Scheme` header,
so a server can replay the proofs it gets at another one (`C83_violated*`). `Verify` of both
token verifiers checks no signature (`C84_violated`). JARM errors are bound to no issuer, audience or time and
lose the state. A crafted verifiable identifier crashes the parser
(`C47_violated_crash`), others have a second spelling (`C47_violated_malleable`).
`StringArray.Remove` removes the first occurrence only and `HasAll()` of an empty list
answers false (C44). `pkce.Validate` never hashes (C48). Pairwise subjects
concatenate sector and subject (`C49_violated`). Access tokens have `nbf = now + 1`,
refresh tokens lose `cnf`, client assertions ignore `nbf` (C50).

**Client authentication.**
The issuer of an attestation proof is not compared with the attested client
(`C43_violated`). A confirmation without a key crashes the server
(`C60_violated`). The audience of client assertions is not compared and assertions
are not remembered (C59). The method of authentication a client is registered with is not looked at
(`C109_method_violated`).

**Example server.**
`/token` crashes on the empty answer of a code grant without `openid`
(`C65_violated_token`), `/revoke` crashes on unknown tokens (`C65_violated_revoke`).
Refresh announces `DPoP` for unbound tokens (`C64_violated_unbound`) and bound refresh
tokens can be used without a proof (`C64_violated_no_proof`). `/device/authorize`
records the client of the form, not the authenticated one (`C66_violated`). `/authorize`
checks the request object with the keys of the client in the query but issues the
code to the client in the object (`C67_violated`). The response mode is ignored
(`C68_violated`). Token exchange is advertised but never served (`C69_violated`).
A request object with `exp`, `nbf`, `iat`, `jti` or `aud` is refused, so usable request
objects never expire (`C72_unknown_refused`).

Whoever names a public client in the query can introspect any token without
credentials (`C76_violated`); with the clients shipped, anybody (`C105_open_introspection`).
A request object signed by the attestation server makes the web application learn the plain
name of the user instead of the pseudonym (one of the cases of `C105_tokens`).

Over HTTP, with the shipped handlers and without any failure, overlapping /token requests
redeem one code twice (`C89_overlap_violated`), and a public client redeems the code of
another one that shares its redirect URI (`C89_client_violated`).

**Randomness.**
`LockedRand` releases its lock without `defer`: one call with a bad bound blocks every later
caller in the process for good (`C85_panic_violated`); a callback of `Shuffle` that draws a number
blocks too (`C85_callback_violated`).

**Token formats.**
JWTs carry the bare name of their kind as type, without `+jwt`, unlike PASETO and CWT
(`C86_jwt_type_violated`). The CWT serializer calls a nil key provider (`C86_cwt_crash_violated`).

**Client library and attestation example.**
The client library sends no DPoP proof with client credentials; the client of the device
example is registered with bound tokens and never gets one (`C73_shipped_violated`). An
answer without `keys` crashes `PublicKeys` (`C74_violated`). The attestation server signs
with EdDSA, which the example server refuses (`C75_shipped_violated`); it attests every
key for every client (`C75_anyone_violated`) and crashes on a request without key
(`C75_crash_violated`). Two registered clients have the same name, so the answer of
`GetByName` depends on the iteration order of a map (`C111_name_violated`), and registering an object twice
changes the client registered first (`C111_alias_violated`). A lookup of a token by identifier can
find what a later lookup by value does not find (`C115_get_violated`). The expiry of a token is
never set from `expires_in`, so the client takes it to be valid for good (`C73_expiry_violated`).

**Discovery and error answers.**
Errors are written with the member `err`, not `error` (`C77_member_violated`), and the code
for an expired device session is not registered (`C77_codes_violated`). The metadata
handler writes to a description shared by all requests without a lock, so overlapping
requests get no signature or that of another one (`C78_absent_violated`,
`C78_nested_violated`); the signed metadata has no `iss` (`C78_iss_violated`). The metadata
names ES256 for DPoP, the verifier accepts ES384 only (`C79_proofs_violated`); empty members
are written (`C79_empty_violated`); codes are issued for the response type `token`, which is not
advertised (`C79_response_type_violated`). ES256 assertions are accepted though not advertised
(`C79_assertion_violated`), and so are public clients without any authentication (`C76_violated`). The client compares no issuer (`C80_issuer_violated`), its
assertion for another server gets a token here (`C80_mixup_violated`), and metadata
`null` crashes it (`C80_null_violated`). The key of the proof sent with a pushed request is
handed to the service and dropped there, so the code is not bound to it (RFC 9449 §10; `C16_key_violated`).

**Error codes.** Nine reasons to refuse a token request are told with another code than the
prescribed one, whenever they are the only one (`C92_violated`; `C92_occurs` shows that each
occurs alone): a client that may not use the grant type gets `unsupported_grant_type`, a public
client `invalid_client` (both should be `unauthorized_client`); an unknown grant type, a missing
payload and missing code parameters get `invalid_grant`; unknown and foreign device codes and
unusable refresh tokens get `invalid_request` (should be `invalid_grant`), other device states
`invalid_token`. An unknown audience gets no code (`C92_violated_audience`). The authorization endpoint tells
unknown response types and clients that may not use the response type with `invalid_request`, and
clients that may not use the code grant with `unsupported_grant_type` (`C93_violated`); the device
endpoint tells an unknown client and a failing client store with `invalid_request`
(`C93_device_violated`). Errors are never sent to the redirect URI, even if it is a registered one
(`C93_redirect_violated`).

**Redirect URIs.** The query of a redirect URI is replaced by the response instead of being retained
(RFC 6749 §3.1.2; `C94_query_violated`, for every redirect URI with a query). Redirect URIs that are not absolute or
have a fragment are accepted; the browser then goes to the authorization server itself, to another path than
the registered one, or gets the response in the fragment (`C94_relative_violated`, `C94_fragment_violated`).
`https:/%2Fevil/"` has no authority, but its location names the host `evil`
(`C94_no_authority_violated`): Go decodes the path, and finds the original text no valid encoding
because of the quote.

**URLs of DPoP proofs.** The prover writes the decoded path, the verifier compares with the escaped one, and a call without path has
the path `/`: the SDK's proofs for all URIs without path or with an escaped character are refused
(`C95_prover_violated`). `CleanURL` writes the decoded path without escaping it, and the verifier decodes it again: a
proof for `/a%20b` is accepted at `/a%2520b` (`C95_double_violated`).

**Headers of answers.** Answers with tokens, token metadata, device codes or request URIs have neither
`Cache-Control: no-store` nor `Pragma: no-cache` (`C96_cache_violated`). `Adapt` makes the last adapter the outermost
one, so the refusal of the login is written before the security headers are set (`C96_login_violated`).

**Requests as texts.** A token request with two codes or two grant types is served with the first of each
(`C97_repeated_violated`), malformed pairs of a form are dropped (`C97_malformed_violated`), codes and verifiers are
accepted in the URL (`C97_query_violated`), and tokens are introspected and revoked by `GET` (`C97_get_violated`).

**Random identifiers.** The `jti` of a DPoP proof is 16 alphanumeric characters, fewer than the 96 bits of RFC 9449
section 4.2; those of assertions and tokens are 8 characters, fewer than 48 bits (`C98_jti_violated`).

**Codes of refused clients.** Malformed, incomplete and expired assertions are told `invalid_request` instead of
`invalid_client` (`C99_violated`); a store fault while an attestation is checked is told as `unauthorized_client`, and a
proof of possession that is not acceptable is refused without an error value (`C99_attestation_violated`); over HTTP, a
request without credentials is told `invalid_request` and a store fault `invalid_client` (`C99_http_violated`).

**Challenges of the resource server.** They are for bearer tokens also when a DPoP request is refused
(`C100_dpop_violated`, RFC 9449 section 7.1); there is none with status 403 (`C100_forbidden_violated`, RFC 6750
section 3); without credentials an error code is told (`C100_no_credentials_violated`, RFC 6750 section 3.1).

**Signed timestamps.** The payload has no mark between issuer and nonce (`C101_boundary_violated`). The metadata of the
resource server writes empty arrays and `scopes_provided`, and names `http://127.0.0.1:8085` where the server signs as
`http://localhost:8085` (`C101_metadata_violated`). The example derives its key from a constant of the source.

**Resource server.**
A header of exactly `bearer` or `dpop` crashes the middleware
(`C51_violated_crash`). The client library dereferences a nil embedded pointer when it
decodes an introspection answer, so the shipped resource server lets no request
through (`C51_shipped_never_passes`). `acr` and `max_age` are not enforced when
introspection does not report them (`C51_stepup_needs_report`).

## 5. Replayed unit tests

The unit tests of the code are a second description of what it does. `Replay/*.lean` runs the model on them:
the services against the calls that their mocks expect, each once, with the answers they give (a call that is
not expected, or expected and not made, fails), the SDK with the real hash functions. They check the
transcription; they are tests and no property rests on them.

| tests | replayed | left out |
|---|---|---|
| `server/services` | 178 of 183 cases, all agree | nil requests of four internal functions; a case that replaces a function under test |
| `sdk/dpop`, `sdk/pairwise`, `sdk/token`, `sdk/token/verifiable`, `sdk/types`, `sdk/jarm`, `sdk/jwsreq` | 156 cases, all agree, with the expected digests, tags and encodings | nil tokens of internal functions; a prefix that is not ASCII; random generators (C98); signing (`sdk/token/jwt`, `sdk/token/paseto`), which is a parameter |
| `server/clientauthentication` | 23 cases, all agree | the context test |

The token of `BenchmarkVerifiableUUIDVerifier` (sdk/token/verifiable/uuid_test.go) does not verify under its key.

## 6. Mutation tests

`seeded/LOG.jsonl` has one line per wrong program tried: the definition edited, the
edit, the property whose English claim it breaks, the theorems whose proofs failed
and the theorems tightened as a result. Programs are made in a scratch copy of
`lean/`. A theorem counts as failed if its proof no longer checks or if it depends on
one that does not.
